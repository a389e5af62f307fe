import Verif.Spec.Controller
import Verif.Spec.MultiRange
import Verif.Model.Solve

/-!
Counterexample search used by tools/mutate.py; not part of the proof.  It evaluates instances of the
property statements on a (seeded) model and prints `VIOLATED Cnn` with the input.  A broken
proof alone does not show that a property is false for a seeded program; a hit here does.
-/
namespace StepperPaths.Witness.Motion

open StepperPaths StepperPaths.Spec StepperPaths.IntegerCurve StepperPaths.Context StepperPaths.Solve

instance : Inhabited (MultiRange Int) := ⟨MultiRange.new⟩

abbrev M := StateT (List String) IO

def report (c : String) (ok : Bool) (msg : Unit → String) : M Unit := do
  unless ok do
    unless (← get).contains c do
      modify (c :: ·)
      IO.println s!"VIOLATED {c} {msg ()}"

def ints (a b : Int) : List Int := (List.range (b - a + 1).toNat).map (fun (k : Nat) => a + k)
def has (rs : List (Int × Int)) (x : Int) : Bool := rs.any fun r => decide (r.1 ≤ x) && decide (x < r.2)
def ordered : List (Int × Int) → Bool
  | [] => true
  | [r] => decide (r.1 ≤ r.2)
  | r :: s :: rs => decide (r.1 ≤ r.2) && decide (r.2 < s.1) && ordered (s :: rs)

/-- Pseudo random numbers. -/
def rnd (s : UInt64) : UInt64 := s * 6364136223846793005 + 1442695040888963407
def pick (s : UInt64) (a b : Int) : Int := a + (((s >>> 33).toNat % (b - a + 1).toNat : Nat) : Int)

def randList (s : UInt64) (n : Nat) (a b : Int) : UInt64 × List Int :=
  (List.range n).foldl (fun (s, l) _ => let s := rnd s; (s, pick s a b :: l)) (s, [])

def gmr : M Unit := do
  let mut s : UInt64 := 7
  for _ in List.range 3000 do
    let mut ms : List (MultiRange Int) := []
    for _ in List.range 3 do
      let mut m : MultiRange Int := MultiRange.new
      for _ in List.range 4 do
        let (s', l) := randList s 2 0 14
        s := s'
        let lo := min l[0]! l[1]!
        let hi := max l[0]! l[1]! + 1
        match m.or lo hi with
        | none => report "C01" false fun _ => s!"{repr m.ranges} or {lo} {hi} panics"
        | some m' =>
          report "C01" ((ints (-1) 17).all fun x => has m'.ranges x == (has m.ranges x || (decide (lo ≤ x) && decide (x < hi))))
            fun _ => s!"{repr m.ranges} or {lo} {hi} = {repr m'.ranges}"
          report "C02" (ordered m'.ranges) fun _ => s!"{repr m.ranges} or {lo} {hi} = {repr m'.ranges}"
          m := m'
      report "C01" (m.or 5 4 |>.isNone) fun _ => "low > high accepted"
      report "C01" (match m.or 5 5 with
        | some m' => (ints (-1) 17).all fun x => has m'.ranges x == has m.ranges x
        | none => false) fun _ => "empty range refused"
      ms := m :: ms
    let a := ms[0]!
    let b := ms[1]!
    let r := a.andRange b
    report "C04" ((ints (-1) 17).all fun x => has r.ranges x == (has a.ranges x && has b.ranges x))
      fun _ => s!"{repr a.ranges} {repr b.ranges} {repr r.ranges}"
    report "C02" (ordered r.ranges && r.ranges.all fun r => decide (r.1 < r.2)) fun _ => s!"and_range {repr r.ranges}"
    report "C05" ((b.andRange a).ranges == r.ranges) fun _ => s!"and_range not commutative {repr a.ranges} {repr b.ranges}"
    let (s', l) := randList s 2 0 14
    s := s'
    let q := a.and l[0]! l[1]!
    report "C03" ((ints (-1) 17).all fun x => has q.ranges x == (has a.ranges x && decide (l[0]! ≤ x) && decide (x < l[1]!)))
      fun _ => s!"{repr a.ranges} and {l} = {repr q.ranges}"
    report "C02" (decide (l[1]! ≤ l[0]!) || (ordered q.ranges && q.ranges.all fun r => decide (r.1 < r.2)))
      fun _ => s!"{repr a.ranges} and {l} = {repr q.ranges}"
    report "C06" (r.isEmpty == r.ranges.isEmpty && r.bounds.isNone == r.isEmpty) fun _ => "bounds/isEmpty"
    match r.bounds with
    | none => pure ()
    | some (l, h) => report "C06" (has r.ranges l && has r.ranges (h - 1) && (ints (-1) 17).all fun x =>
        !has r.ranges x || (decide (l ≤ x) && decide (x < h))) fun _ => s!"{repr r.ranges} bounds {l} {h}"

def gsolve : M Unit := do
  for a in ints 1 4 do
    for b in ints (-7) 7 do
      for c in ints (-9) 12 do
        match findRoots a b c with
        | none => report "C08" false fun _ => s!"find_roots {a} {b} {c} panics"
        | some none => report "C08" (decide (b * b + 4 * a * c < 0)) fun _ => s!"find_roots {a} {b} {c} = None"
        | some (some (x, y)) =>
          report "C08" (decide (0 ≤ b * b + 4 * a * c) && decide (x ≤ y) && (ints (-20) 20).all fun z =>
            decide (a * z ^ 2 + b * z < c) == (decide (x < z) && decide (z < y))) fun _ => s!"find_roots {a} {b} {c} = {x} {y}"
  for b in ints (-7) 7 do
    for k in ints 1 700 do
      let c := k * k / 4 + 3 * k
      match findRoots 1 b c with
      | some (some (x, y)) =>
        let f := fun z : Int => decide (z ^ 2 + b * z < c)
        report "C08" (!f x && !f y && f (x + 1) && f (y - 1)) fun _ => s!"find_roots 1 {b} {c} = {x} {y}"
      | _ => report "C08" false fun _ => s!"find_roots 1 {b} {c} fails"
  for a in ints (-3) 3 do
    for b in ints (-4) 4 do
      for c in ints (-6) 6 do
        for lo in ints (-4) 4 do
          for hi in ints lo 5 do
            let f := fun x : Int => a * x ^ 2 + b * x - c
            match findRoot a b c lo hi with
            | none => report "C07" (decide (f lo ≠ 0) && decide (f hi ≠ 0) && (decide (0 ≤ f lo) == decide (0 ≤ f hi))) <|
                fun _ => s!"find_root {a} {b} {c} {lo} {hi} = None"
            | some x =>
              report "C07" (decide (lo ≤ x) && decide (x ≤ hi) && decide (0 ≤ f x) &&
                (decide (f x = 0) || (decide (x + 1 ≤ hi) && decide (f (x + 1) < 0)) ||
                  (decide (lo ≤ x - 1) && decide (f (x - 1) < 0)))) fun _ => s!"find_root {a} {b} {c} {lo} {hi} = {x}"

def gacc : M Unit := do
  let mut s : UInt64 := 99
  for _ in List.range 2000 do
    let (s', l) := randList s 10 0 3
    s := s'
    let ps := (List.range 5).map fun k => ((l[2 * k]!).toNat, l[2 * k + 1]! - 1)
    match ps.foldlM (fun v p => accPush v p.1 p.2) ([] : List AccSegment) with
    | none => report "C20" false fun _ => s!"push {ps} panics"
    | some v =>
      report "C20" (expand v == ps.flatMap (fun p => List.replicate p.1 p.2) && v.all (fun s => s.interval > 0)
        && (v.zip v.tail).all (fun p => p.1.acc != p.2.acc)) fun _ => s!"push {ps} = {repr v}"
      let v0 := l[0]! - 2
      report "C21" (accDistance v v0 == some (dist v0 (expand v), endVel v0 (expand v))) fun _ => s!"acc_distance {repr v} {v0}"
      for t in List.range ((expand v).length + 2) do
        report "C22" ((accIter v t >>= AccIter.collect) == (if t < (expand v).length then some ((expand v).drop t) else none))
          fun _ => s!"acc_iter {repr v} {t}"
  report "C20" (accPush [⟨65530, 1⟩] 5 1 == some [⟨65535, 1⟩] && (accPush [⟨65530, 1⟩] 6 1).isNone) fun _ => "u16 limit"

def motion (T : Int) (ds v0 vn a vmax : Int) (segs : List AccSegment) (pre : List String) : M Unit := do
  let l := expand segs
  let d := dist v0 l
  let msg := fun (_ : Unit) => s!"ds={ds} v0={v0} vn={vn} a={a} vmax={vmax} segs={repr segs}"
  report pre[0]! (decide ((l.length : Int) = T) && endVel v0 l == vn) msg
  report pre[1]! (l.all fun x => decide (x.natAbs ≤ a.natAbs)) msg
  report pre[2]! ((vels v0 l).all fun x => decide (x.natAbs ≤ vmax.natAbs)) msg
  report pre[3]! (decide ((d - ds).natAbs ≤ 1) && (d == ds) == ((ds - (v0 + vn)) % 2 == 0)) msg

def gcurve : M Unit := do
  for d in ints (-40) 40 do
    for m in ints 1 9 do
      match splitAcc d m with
      | none => report "C09" false fun _ => s!"split_acc {d} {m} panics"
      | some (t, r) =>
        report "C09" (decide (0 ≤ t) && d == d.sign * t * m + r && decide (r.natAbs ≤ m.natAbs) &&
          (decide (d ≤ 0) || decide (0 < r)) && (decide (d ≥ 0) || decide (r < 0)) && (d != 0 || (t == 0 && r == 0)))
          fun _ => s!"split_acc {d} {m} = {t} {r}"
  for a in ints 1 3 do
    for v0 in ints (-4) 4 do
      for vn in ints (-4) 4 do
        for vf in ints (-6) 6 do
          let need := (((vf - v0).natAbs + a.natAbs - 1) / a.natAbs) + (((vf - vn).natAbs + a.natAbs - 1) / a.natAbs)
          for x in [0, 1, 3] do
            let T : Int := need + x
            let p : DistancePath := ⟨v0, vn, a, vf, T, 0⟩
            report "C10" (p.distance == some (profileDist (trapezoid v0 vn a vf T) T.toNat))
              fun _ => s!"distance {v0} {vn} {a} {vf} {T}"
  for a in ints 1 3 do
    for vmax in [a, a + 1, 2 * a + 1, 7] do
      for v0 in ints (-4) 4 do
        for vn in ints (-4) 4 do
          if v0.natAbs ≤ vmax.natAbs ∧ vn.natAbs ≤ vmax.natAbs ∧ a ≤ vmax then
            for ds in ints (-33) 33 do
              let msg := fun (_ : Unit) => s!"ds={ds} v0={v0} vn={vn} a={a} vmax={vmax}"
              match shortestCurve ds v0 vn a vmax with
              | none => report "C11/C15" false msg
              | some p =>
                report "C11" (match p.distance with
                  | some d => decide ((d - ds).natAbs ≤ 1) && (d == ds) == ((ds - (v0 + vn)) % 2 == 0)
                  | none => false) msg
                match p.accSeq with
                | none => report "C15" false msg
                | some segs =>
                  motion p.tTotal ds v0 vn a vmax segs ["C12", "C13", "C14", "C12"]
                  report "C12" (p.distance == some (dist v0 (expand segs)) && segs.all fun s => s.interval > 0) msg
                match shortestCurveLength ds v0 vn a vmax with
                | none => report "C17" false msg
                | some r =>
                  report "C17" (has r.ranges p.tTotal && (ints 0 p.tTotal).all fun t => !has r.ranges t || t == p.tTotal) msg
                  for t in ints 1 (p.tTotal + 6) do
                    if has r.ranges t then
                      match (adjustCurve t ds v0 vn a >>= DistancePath.accSeq) with
                      | none => report "C17" false msg
                      | some segs => motion t ds v0 vn a vmax segs ["C17", "C17", "C17", "C17"]
              match maxAccelerationCurve ds v0 vn a with
              | none => report "C19" false msg
              | some r => report "C19" ((ints (-1) 30).all fun T => has r.ranges T == (decide (1 ≤ T) &&
                  decide (((v0 - vn).natAbs : Int) ≤ a * T) &&
                  decide ((v0 - vn) ^ 2 + a ^ 2 + 2 * a * ds ≤ a ^ 2 * T ^ 2 + 2 * a * (v0 + vn) * T) &&
                  decide ((v0 - vn) ^ 2 + a ^ 2 + 2 * a * ds ≤ a ^ 2 * (T + 1) ^ 2 + 2 * a * (v0 + vn) * (T + 1)))) msg
  let mut s : UInt64 := 5
  for _ in List.range 1500 do
    let (s', l) := randList s 8 (-9) 9
    s := s'
    let mk := fun (k : Nat) (a : Int) => (⟨l[k]! * 7 + l[k + 1]!, l[k + 2]!, l[k + 3]!, a, 10⟩ : PathLimits)
    let ls := [mk 0 2, mk 4 3]
    match shortestCurveSequences ls with
    | none => report "C16" false fun _ => s!"{repr ls} panics"
    | some seqs =>
      report "C16" (seqs.length == 2 && (expand seqs[0]!).length == (expand seqs[1]!).length) fun _ => s!"{repr ls}"
      for (l, q) in ls.zip seqs do
        motion (expand seqs[0]!).length l.ds l.v0 l.vn l.a l.vmax q ["C16", "C16", "C16", "C16"]

def lim (c : Ctx) (i : Axis) (x v : Int) : Bool :=
  decide ((c.channels i).v.natAbs ≤ (c.vMax i).natAbs) && decide (v.natAbs ≤ (c.vMax i).natAbs) &&
    decide ((x - (c.channels i).pos).natAbs < 100000)

def consistent (c : Ctx) : Bool :=
  [Axis.x, Axis.y].all fun i => (c.channels i).pos == posAt i c.events (c.channels i).ticks &&
    (c.channels i).v == velAt i c.events (c.channels i).ticks

def same (c d : Ctx) : Bool :=
  c.events == d.events && c.eventTicks == d.eventTicks && c.position == d.position && c.velocity == d.velocity &&
    [Axis.x, Axis.y].all fun i => c.channels i == d.channels i

def gctx : M Unit := do
  let mut s : UInt64 := 17
  let aM : Axis → Int := fun | .x => 2 | .y => 3
  for round in List.range 250 do
    let vM : Axis → Int := if round % 2 == 0 then (fun | .x => 9 | .y => 12) else (fun | .x => 13 | .y => 10)
    let mut c := Ctx.new aM vM
    let mut sync := true
    for _ in List.range 7 do
      let (s', l) := randList s 6 (-9) 9
      s := s'
      let t := (c.channels .x).ticks
      let op := if round % 5 == 0 then (l[5]!.natAbs % 7) else (l[5]!.natAbs % 6)
      match op with
      | 0 =>
        let n := l[2]!.natAbs % 4 + 1
        match c.addAccInterval (l[0]! / 4) (l[1]! / 4) n with
        | none => report "C24" (!sync) fun _ => "add_acc_interval panics"
        | some c' =>
          if sync then
            report "C24" (c'.ticks == some (t + n) && (List.range (t + n)).all fun τ =>
              accAt .x c'.events τ == (if τ < t then accAt .x c.events τ else l[0]! / 4) &&
              accAt .y c'.events τ == (if τ < t then accAt .y c.events τ else l[1]! / 4) &&
              weightAt 7 c'.events τ == weightAt 7 c.events τ) fun _ => "add_acc_interval effect"
          c := c'
      | 1 =>
        let x := l[0]! * 5
        let y := l[1]! * 6
        if lim c .x x l[2]! && lim c .y y l[3]! then
          match c.stepGotoSpeed x y l[2]! l[3]! with
          | none => report "C25" (!sync) fun _ => s!"goto {x} {y} {l[2]!} {l[3]!} panics"
          | some c' =>
            let ok1 := fun (p x v : Int) => decide ((p - x).natAbs ≤ 1) && (p == x) == ((x - v) % 2 == 0)
            report "C25" (c'.velocity == (l[2]!, l[3]!) && ok1 c'.position.1 x l[2]! && ok1 c'.position.2 y l[3]!)
              fun _ => s!"goto {x} {y} {l[2]!} {l[3]!}: {c'.position} {c'.velocity}"
            if let some t' := c'.ticks then
              if c.ticks == some t then
                for i in [Axis.x, Axis.y] do
                  report "C26" (decide (t < t') && (ints t (t' - 1)).all fun τ => decide ((accAt i c'.events τ.toNat).natAbs ≤ (aM i).natAbs) &&
                    decide ((velAt i c'.events (τ.toNat + 1)).natAbs ≤ (vM i).natAbs)) fun _ => "limits in goto"
                report "C28" ((List.range (t' + 3)).all fun τ => weightAt 7 c'.events τ == (if τ < t then weightAt 7 c.events τ else 0))
                  fun _ => "weight in goto"
            c := c'
      | 2 =>
        let w := t + l[0]!.natAbs % 3
        report "C29" (!sync || t == 0 || (c.addWeightChange 5 (t - 1)).isNone) fun _ => "weight change in the past accepted"
        match c.addWeightChange l[1]! w with
        | none => report "C29" (!sync) fun _ => "add_weight_change panics"
        | some c' =>
          if sync then
            report "C24" ((List.range (w + 3)).all fun τ => weightAt 7 c'.events τ == if τ < w then weightAt 7 c.events τ else l[1]!)
              fun _ => "weight change effect"
          if w == t then c := c' else
            report "C29" (!sync || ((c'.addAccInterval 1 1 1).isNone && c'.readEvents.isNone)) fun _ => "future weight change does not block"
      | 3 =>
        let req := fun (k : Nat) (_ : Ctx) => (l[0]! * 3 + (k : Int), l[1]! * 4 - (k : Int))
        let inside := [Axis.x, Axis.y].all fun i => decide ((c.channels i).v.natAbs ≤ (vM i).natAbs)
        match c.approxCurve req 1 6 with
        | none => report "C31" (!sync) fun _ => "approx_curve panics"
        | some c' =>
          if inside && sync then
            report "C31" (c'.ticks == some (t + 6) && [Axis.x, Axis.y].all fun i => (List.range 7).all fun k =>
              decide ((velAt i c'.events (t + k)).natAbs ≤ (vM i).natAbs)) fun _ => "speed limit"
          c := c'
      | 4 =>
        match c.readEvents with
        | none => report "C34" (!sync) fun _ => "events panics"
        | some c' =>
          report "C28" ((List.range (t + 4)).all fun τ =>
            if τ < t then weightAt 7 c'.events τ == weightAt 7 c.events τ && accAt .x c'.events τ == accAt .x c.events τ
              && accAt .y c'.events τ == accAt .y c.events τ
            else weightAt 7 c'.events τ == 0 && accAt .x c'.events τ == 0 && accAt .y c'.events τ == 0) fun _ => "end of events"
          match c'.readEvents with
          | none => report "C34" false fun _ => "second events panics"
          | some c2 => report "C34" ((c2.events.drop c'.events.length).all (fun e => e.ticks == 0) &&
              c2.events.length == c'.events.length + 3 && c2.position == c'.position && c2.ticks == c'.ticks) fun _ => "second events"
          c := c'
      | 5 =>
        let d := (Ctx.new aM vM).setWeight c.curveWeight
        let r := c.reset
        let run := fun (c : Ctx) => do
          let c ← c.addAccInterval 1 (-1) 3
          let c ← c.stepGotoSpeed 20 11 1 0
          c.readEvents
        report "C33" (match run r, run d with | some a, some b => same a b | none, none => true | _, _ => false) fun _ => "reset"
        if l[0]! > 6 then
          c := r
          sync := true
      | _ =>
        match c.speed l[0]! l[1]! with
        | none => pure ()
        | some c' =>
          report "C30" (c'.velocity == (l[0]!, l[1]!) && consistent c') fun _ => s!"speed {l[0]!} {l[1]!}"
          let ramp := fun (a d : Int) => (d.natAbs + a.natAbs - 1) / a.natAbs
          if c.ticks.isSome then
            report "C30" (c'.ticks.isNone == (ramp (aM .x) (l[0]! - c.velocity.1) != ramp (aM .y) (l[1]! - c.velocity.2))) fun _ => "speed ticks"
          c := c'
          sync := c'.ticks.isSome
      report "C23" (consistent c) fun _ => s!"op {op} {l}"
      if sync then
        report "C24" (match c.ticks with | some t => decide (duration c.events ≤ t) | none => false) fun _ => s!"op {op}"
    -- merging
    let (s', l) := randList s 12 0 4
    s := s'
    let sx := (List.range 3).map fun k => (⟨l[2 * k]!.toNat, l[2 * k + 1]! - 2⟩ : AccSegment)
    let sy := (List.range 3).map fun k => (⟨l[2 * k + 6]!.toNat, l[2 * k + 7]! - 2⟩ : AccSegment)
    if sync then
      match c.accSegsToEvents sx sy with
      | none => report "C27" false fun _ => "merge panics"
      | some c' =>
        let t := (c.channels .x).ticks
        let chk := fun (i : Axis) (q : List AccSegment) => (c'.channels i).ticks == t + (expand q).length &&
          (List.range (expand q).length).all fun k => accAt i c'.events (t + k) == (expand q)[k]!
        report "C27" (chk .x sx && chk .y sy) fun _ => s!"merge {repr sx} {repr sy}"

def search : IO Unit := do
  let ((), l) ← (do gmr; gsolve; gacc; gcurve; gctx : M Unit).run []
  IO.println s!"done {l.length}"

end StepperPaths.Witness.Motion
