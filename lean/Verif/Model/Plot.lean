import Verif.Model.Checked
import Verif.Model.Control

/-!
Model of the two small programs: `paths` (src/main.rs), which prints one curve, and
`animate_curve` (src/animate_curve.rs), which prints an Asymptote program that draws 140 curves.

`none` is a panic; what the program has written before it panics is left out.  Writing to the
standard output succeeds.  The `i64` operations of `shortest_curve`, `acc_seq` and `distance` are
the checked ones of `Verif.Model.Checked`.
-/

namespace StepperPaths.Plot
open IntegerCurve Control

/-- `args.next().unwrap().parse::<i64>().unwrap()`, main.rs 29-31 and animate_curve.rs 56-59. -/
def nextArg : List (List Char) → Option (Int × List (List Char))
  | [] => none
  | s :: rest => (parseI64 s).map fun n => (n, rest)

/-- `x as i32`: the low 32 bits. -/
def asI32 (x : Int) : Int := Int.bmod x (2 ^ 32)

/-- `fmt::Display for DistancePath`, integer_curve.rs 245-259. -/
def pathText (p : DistancePath) : Option (List Char) := do
  let s ← Checked.distance p
  return "v= ".toList ++ showInt p.v0 ++ " -> ".toList ++ showInt p.vn ++ " amax = ".toList ++ showInt p.amax ++
    ", vflat = ".toList ++ showInt p.vflat ++ ", t_total = ".toList ++ showInt p.tTotal ++
    ", t_adjust = ".toList ++ showInt p.tAdjust ++ ", s = ".toList ++ showInt s

/-- `main` of the program `paths`, main.rs 26-38; `args` includes the name of the program. -/
def curveMain (args : List (List Char)) : Option (List Char) := do
  let args := args.drop 1
  let (ds, args) ← nextArg args
  let (v0, args) ← nextArg args
  let (vn, _) ← nextArg args
  let vmax := 10
  let a := 5
  let path ← Checked.shortestCurve ds v0 vn a vmax
  let text ← pathText path
  return "Curve: ".toList ++ text ++ ['\n']

/-- `PREFIX`, animate_curve.rs 12-39. -/
def animatePrefix : String :=
  "\n" ++
  "void draw_axis(real taxismax, \n" ++
  "\t       real vaxismin, \t       \n" ++
  "\t       real vaxismax) {\n" ++
  "  for (real y = vaxismin; y <= vaxismax; ++y) { \n" ++
  "    draw((0, y) -- (taxismax, y),gray +linewidth(0.1pt));\n" ++
  "  }\n" ++
  "  for (real x = 0; x <= taxismax; ++x) { \n" ++
  "  draw((x, vaxismin) -- (x, vaxismax),gray +linewidth(0.1pt));\n" ++
  "  }\n" ++
  "  \n" ++
  "  draw((0,vaxismin) -- (0,vaxismax), arrow=Arrow);\n" ++
  "  draw((0,0) -- (taxismax,0), arrow=Arrow);\n" ++
  "}\n" ++
  "\n" ++
  "size(10cm);\n" ++
  "real taxismax = 12;\n" ++
  "real vaxismax = 7;\n" ++
  "real vaxismin = -7;\n" ++
  "\n" ++
  "import curves;\n" ++
  "\n" ++
  "draw_axis(taxismax, vaxismin, vaxismax);\n" ++
  "\n" ++
  "import animation;\n" ++
  "\n" ++
  "animation a;\n"

/-- `SUFFIX`, animate_curve.rs 41-52. -/
def animateSuffix : String :=
  "\n" ++
  "for (int i=0; i < c.length; ++i) { \n" ++
  "  save();\n" ++
  "  draw(c[i], red);\n" ++
  "  label(Label(format(\"$s=%d$\", dist[i]), align= LeftSide), position=(8,-6), black);\n" ++
  "  a.add();\n" ++
  "  restore();\n" ++
  "}\n" ++
  "\n" ++
  "erase();\n" ++
  "a.movie(BBox(0.25cm),delay=100);\n"

/-- The loop over the segments, animate_curve.rs 70-78: `t` is a `u16` and `v` an `i32`. -/
def animateSegs (t : Nat) (v : Int) : List AccSegment → Option (List Char)
  | [] => some []
  | s :: rest => do
    let t ← toU16 (t + s.interval)
    let dv ← toI32 (s.acc * s.interval)
    let v ← toI32 (v + dv)
    let more ← animateSegs t v rest
    return " -- (".toList ++ showNat t ++ ", ".toList ++ showInt v ++ ")".toList ++ more

/-- One turn of the loop over `ds`, animate_curve.rs 65-79. -/
def animateOne (v0 vn vmax a ds : Int) : Option (List Char) := do
  let path ← Checked.shortestCurve ds v0 vn a vmax
  let seq ← Checked.accSeq path
  let t := 0
  let v := asI32 v0
  let more ← animateSegs t v seq
  return "(".toList ++ showNat t ++ ", ".toList ++ showInt v ++ ")".toList ++ more ++ ",\n".toList

/-- The loop over `ds`, animate_curve.rs 64-81, with `n` turns left: what is written and what is
appended to `dist`. -/
def animateLoop (v0 vn vmax a : Int) : Nat → Int → Option (List Char × List Char)
  | 0, _ => some ([], [])
  | n + 1, ds => do
    let text ← animateOne v0 vn vmax a ds
    let (more, dists) ← animateLoop v0 vn vmax a n (ds + 1)
    return (text ++ more, showInt ds ++ ",".toList ++ dists)

/-- `main` of the program `animate_curve`, animate_curve.rs 53-86. -/
def animateMain (args : List (List Char)) : Option (List Char) := do
  let args := args.drop 1
  let (v0, args) ← nextArg args
  let (vn, args) ← nextArg args
  let (vmax, args) ← nextArg args
  let (a, _) ← nextArg args
  let (text, dists) ← animateLoop v0 vn vmax a 140 (-70)
  return animatePrefix.toList ++ "path c[] = { ".toList ++ text ++ "};\n".toList ++
    ("int dist[] = {\n".toList ++ dists ++ "};\n".toList) ++ animateSuffix.toList

end StepperPaths.Plot
