import Verif.Model.SvgDoc

/-! Counterexample search for the text parsers of the SVG reader (C50–C55, C59, C80), see
Verif/Witness/Motion.lean.  Only the computable parts are run: numbers, commands, lengths, view
boxes and the layer filter. -/

-- covers: Verif/Model/SvgText.lean Verif/Model/SvgDoc.lean

namespace StepperPaths.Witness.Text
open StepperPaths StepperPaths.Svg

abbrev M := StateT (List String) IO

def report (c : String) (ok : Bool) (msg : Unit → String) : M Unit := do
  unless ok do
    unless (← get).contains c do
      modify (c :: ·)
      IO.println s!"VIOLATED {c} {msg ()}"

/-- What is left of the text, and the value. -/
def num (s : String) : Option (String × ℚ) := (number s.toList).map fun r => (String.ofList r.1, r.2)
def cmd (s : String) : Option (String × Char × List ℚ) := (pathCommand s.toList).map fun r => (String.ofList r.1, r.2)

def search : IO Unit := do
  let run : M Unit := do
    for (s, r, v) in [("0", "", (0 : ℚ)), ("12", "", 12), ("-12", "", -12), ("+7 8", " 8", 7), ("1.5", "", 3 / 2), ("-.25x", "x", -1 / 4),
        ("3.", "", 3), ("+3.e2", "", 300), ("1e3", "", 1000), ("1E+3", "", 1000), ("25e-1", "", 5 / 2), ("1.5e-2,", ",", 3 / 200),
        ("10.05", "", 201 / 20), ("1e", "e", 1), ("1.2.3", ".3", 6 / 5), ("007", "", 7), ("5-6", "-6", 5)] do
      report "C52" (num s == some (r, v)) fun _ => s!"{s}: {repr (num s)}"
    for s in ["", ".", "-", "+", "e5", ".e5", " 1", "--1", "x"] do
      report "C52" (num s == none) fun _ => s!"{s} accepted"
    for (s, r, c, l) in [("M1 2", "", 'M', [(1 : ℚ), 2]), (" l 1,2 , 3\n4", "", 'l', [1, 2, 3, 4]), ("z", "", 'z', []), ("zM1 1", "M1 1", 'z', []),
        ("h-1 v2", " v2", 'h', [-1]), ("a1 2,3 0 1 5 6", "", 'a', [1, 2, 3, 0, 1, 5, 6]), ("M1,,2", ",,2", 'M', [1]),
        ("M1 2,", ",", 'M', [1, 2]), ("M1-2", "-2", 'M', [1]), ("\tQ\t1\r2", "", 'Q', [1, 2]), ("S1", "", 'S', [1]), ("t.5", "", 't', [1 / 2])] do
      report "C53" (cmd s == some (r, c, l)) fun _ => s!"{s}: {repr (cmd s)}"
    for s in ["", "1 2", "b1", ",M1", "R", "Y0"] do
      report "C54" (cmd s == none) fun _ => s!"{s} accepted"
    for c in "mMzZlLhHvVcCsSqQtTaA".toList do
      report "C53" (cmd (String.ofList [c]) == some ("", c, [])) fun _ => s!"{c}"
    for (s, v) in [("1", some (1 : ℚ)), ("2mm", some 2), (" 2 cm ", some 20), ("1in", some (127 / 5)), ("72pt", some (127 / 5)), ("6pc", some (127 / 5)), ("3px", some 3),
        ("1.5e1mm", some 15), ("-2cm", some (-20)), ("5em", some 5), ("50%", some 50), ("", none), ("mm", none)] do
      report "C80" (parseLength s.toList == v) fun _ => s!"{s}: {repr (parseLength s.toList)}"
    for (s, v) in [("0 0 10 20", some ((0 : ℚ), (0 : ℚ), (10 : ℚ), (20 : ℚ))), (" -1,2.5 , 3,4 ", some (-1, 5 / 2, 3, 4)), ("1 2 3", none), ("", none), ("1 2 3 x", none), ("1,2,3,4,5", some (1, 2, 3, 4))] do
      report "C80" (parseViewBox s.toList == v) fun _ => s!"{s}: {repr (parseViewBox s.toList)}"
    let g : Name := ⟨"g", some svgNs⟩
    let mode (v : String) : Attr := ⟨⟨"groupmode", some inkscapeNs⟩, v.toList⟩
    let label (v : String) : Attr := ⟨⟨"label", some inkscapeNs⟩, v.toList⟩
    let other : Attr := ⟨⟨"label", some svgNs⟩, "a".toList⟩
    let otherMode : Attr := ⟨⟨"groupmode", some svgNs⟩, "layer".toList⟩
    for (n, as, k) in [(g, [mode "layer", label "a"], true), (g, [label "a", mode "layer"], true), (g, [mode "layer", label "b"], false),
        (g, [mode "layer"], false), (g, [mode "layer", other], false), (g, [label "b", otherMode], true), (g, [label "b"], true), (g, [], true),
        (⟨"path", some svgNs⟩, [mode "layer", label "b"], true), (⟨"g", none⟩, [mode "layer", label "b"], true),
        (g, [mode "group", label "b"], true)] do
      report "C59" (layerFilter "a".toList n as == k) fun _ => s!"{n.local} {as.length}"
      report "C59" (noFilter n as == true) fun _ => "noFilter"
  let ((), l) ← run.run []
  IO.println s!"done {l.length}"

end StepperPaths.Witness.Text
