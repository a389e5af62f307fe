import Verif.Model.CheckedMotion
import Mathlib.Tactic.SplitIfs
import Mathlib.Tactic.NormNum

/-!
Evaluation of `step_goto_speed` by the kernel for two moves, one of which ends with twice the speed limit to the left.  The loops
are replaced by loops with a bound on the number of passes.
-/

namespace StepperPaths.Checked.Fast
open Context Solve IntegerCurve

/-- `findRootLoop` with at most `n` passes. -/
def rootN : ℕ → Int → Int → Int → Int → Int → Int → Int → Option Int
  | 0, _, _, _, _, _, _, _ => none
  | n + 1, a, b, c, minx, maxx, miny, maxy =>
    if miny = 0 then some minx
    else if maxy = 0 then some maxx
    else do
      let d ← maxx -? minx
      if d ≤ 1 then (if maxy ≥ 0 then some maxx else some minx)
      else
        let midx ← (minx +? maxx) /? 2
        let midy ← sqpoly a b c midx
        if sameSign maxy midy then rootN n a b c minx midx miny midy
        else rootN n a b c midx maxx midy maxy

theorem rootN_le {n : ℕ} : ∀ {a b c p q r s x : Int}, rootN n a b c p q r s = some x → findRootLoop a b c p q r s = some x := by
  induction n with
  | zero => intro a b c p q r s x h; cases h
  | succ n ih =>
    intro a b c p q r s x h
    rw [findRootLoop]
    unfold rootN at h
    by_cases h1 : r = 0
    · rw [if_pos h1] at h ⊢; exact h
    rw [if_neg h1] at h ⊢
    by_cases h2 : s = 0
    · rw [if_pos h2] at h ⊢; exact h
    rw [if_neg h2] at h ⊢
    obtain ⟨d, hd, h⟩ := Option.bind_eq_some_iff.1 h
    rw [hd]
    change (if _ then _ else _) = _
    by_cases h3 : d ≤ 1
    · rw [if_pos h3] at h ⊢; exact h
    rw [if_neg h3] at h ⊢
    obtain ⟨m, hm, h⟩ := Option.bind_eq_some_iff.1 h
    obtain ⟨y, hy, h⟩ := Option.bind_eq_some_iff.1 h
    rw [hm]
    change (sqpoly a b c m).bind _ = _
    rw [hy]
    change (if _ then _ else _) = _
    split_ifs at h ⊢
    · exact ih h
    · exact ih h

/-- `searchFlat` with at most `n` passes. -/
def searchN : ℕ → Int → Int → Int → Int → Int → Int → Int → Int → Int → Option (Int × Int × Int × Int)
  | 0, _, _, _, _, _, _, _, _, _ => none
  | n + 1, tTotal, ds, v0, vn, a, mn, mx, smin, smax => do
    let d ← mx -? mn
    if d ≤ 1 then some (mn, mx, smin, smax)
    else
      let mid ← (mx +? mn) /? 2
      let s ← pathDistance v0 vn mid a tTotal
      if s ≥ ds then searchN n tTotal ds v0 vn a mn mid smin s
      else searchN n tTotal ds v0 vn a mid mx s smax

theorem searchN_le {n : ℕ} : ∀ {T ds v0 vn a mn mx smin smax : Int} {r}, searchN n T ds v0 vn a mn mx smin smax = some r →
    searchFlat T ds v0 vn a mn mx smin smax = some r := by
  induction n with
  | zero => intro T ds v0 vn a mn mx smin smax r h; cases h
  | succ n ih =>
    intro T ds v0 vn a mn mx smin smax r h
    rw [searchFlat]
    unfold searchN at h
    obtain ⟨d, hd, h⟩ := Option.bind_eq_some_iff.1 h
    rw [hd]
    change (if _ then _ else _) = _
    change (if _ then _ else _) = _ at h
    split_ifs at h ⊢ with h3
    · exact h
    · obtain ⟨m, hm, h⟩ := Option.bind_eq_some_iff.1 h
      obtain ⟨y, hy, h⟩ := Option.bind_eq_some_iff.1 h
      rw [hm]
      change (pathDistance v0 vn m a T).bind _ = _
      rw [hy]
      change (if _ then _ else _) = _
      change (if _ then _ else _) = _ at h
      split_ifs at h ⊢
      · exact ih h
      · exact ih h

theorem grow : growLimit 400 0 400 0 16 = some 16 := by rw [growLimit]; decide +kernel
theorem root1 : findRoot 400 0 400 (-17) 0 = some (some (-1)) := by
  have := rootN_le (n := 10) (show rootN 10 400 0 400 (-17) 0 115200 (-400) = some (-1) by decide +kernel)
  unfold findRoot
  rw [show sqpoly 400 0 400 (-17) = some 115200 by decide +kernel, show sqpoly 400 0 400 0 = some (-400) by decide +kernel]
  simp [sameSign, this]
theorem root2 : findRoot 400 0 400 0 17 = some (some 1) := by
  have := rootN_le (n := 10) (show rootN 10 400 0 400 0 17 (-400) 115200 = some 1 by decide +kernel)
  unfold findRoot
  rw [show sqpoly 400 0 400 0 = some (-400) by decide +kernel, show sqpoly 400 0 400 17 = some 115200 by decide +kernel]
  simp [sameSign, this]
theorem bv {α β : Type} {x : Option α} (a : α) {f : α → Option β} {r : Option β} (h : x = some a) (hf : f a = r) : (x >>= f) = r := by
  subst h; exact hf
theorem ca {β : Type} {p : Prop} [Decidable p] {f : Unit → Option β} {r : Option β} (h : p) (hf : f () = r) : (cassert p >>= f) = r := by
  rw [cassert, if_pos h]; exact hf

theorem still : sideLengths 0 0 0 20 50 = some (MultiRange.range 1 i64Max) := by
  have : maxAccelerationCurve 0 0 0 20 = some (MultiRange.range 1 i64Max) := by
    unfold maxAccelerationCurve
    refine bv 1 (by decide +kernel) (bv 400 (by decide +kernel) (bv 0 (by decide +kernel) (bv 400 (by decide +kernel) (bv 400 (by decide +kernel) ?_))))
    rw [if_neg (by decide)]
    refine bv 0 (by decide +kernel) (bv (-400) (by decide +kernel) ?_)
    rw [if_neg (by decide)]
    refine bv 16 grow (bv 17 (by decide +kernel) (bv (-17) (by decide +kernel) (bv (some (-1)) root1 (bv 17 (by decide +kernel) (bv (some 1) root2 ?_)))))
    decide +kernel
  unfold sideLengths
  refine bv MultiRange.new (by decide +kernel) ?_
  rw [if_pos (by decide), this]
theorem back : adjustCurve 23 1000 (-100) 0 20 = some ⟨-100, 0, 20, 49, 23, -7⟩ := by
  unfold adjustCurve
  rw [if_neg (by decide)]
  refine bv none (by decide +kernel) (bv 14 (by decide +kernel) (bv 9 (by decide +kernel) (bv 23 (by decide +kernel) (ca (by decide)
    (bv 22 (by decide +kernel) (ca (by decide) (bv 180 (by decide +kernel) (bv (-280) (by decide +kernel) ?_))))))))
  refine ca (by decide) (bv 2740 (by decide +kernel) (bv (-7340) (by decide +kernel) (ca (by decide) (ca (by decide) ?_))))
  refine bv (48, 49, 988, 1014) (searchN_le (n := 10) (by decide +kernel)) ?_
  decide +kernel
theorem common1 : commonLengths (MultiRange.range i64Min i64Max) [⟨-1000, 0, -100, 20, 50⟩, ⟨0, 0, 0, 20, 50⟩] =
    some (MultiRange.range 13 i64Max) := by
  unfold commonLengths
  refine bv (MultiRange.range 13 i64Max) (by decide +kernel) ?_
  unfold commonLengths
  refine bv (MultiRange.range 1 i64Max) ?_ (by decide +kernel)
  unfold shortestCurveLength
  exact bv _ still (bv 0 (by decide +kernel) (bv 0 (by decide +kernel) (bv 0 (by decide +kernel) (bv _ still (by decide +kernel)))))


theorem common2 : commonLengths (MultiRange.range i64Min i64Max) [⟨1000, -100, 0, 20, 50⟩, ⟨0, 0, 0, 20, 50⟩] =
    some (MultiRange.range 23 i64Max) := by
  unfold commonLengths
  refine bv (MultiRange.range 23 i64Max) (by decide +kernel) ?_
  unfold commonLengths
  refine bv (MultiRange.range 1 i64Max) ?_ (by decide +kernel)
  unfold shortestCurveLength
  exact bv _ still (bv 0 (by decide +kernel) (bv 0 (by decide +kernel) (bv 0 (by decide +kernel) (bv _ still (by decide +kernel)))))

theorem seq1 : shortestCurveSequences [⟨-1000, 0, -100, 20, 50⟩, ⟨0, 0, 0, 20, 50⟩] =
    some [[⟨1, -20⟩, ⟨1, -11⟩, ⟨5, 0⟩, ⟨1, -1⟩, ⟨1, 0⟩, ⟨1, -8⟩, ⟨3, -20⟩], [⟨13, 0⟩]] := by
  unfold shortestCurveSequences
  exact bv _ (by decide +kernel : _ = some (MultiRange.range i64Min i64Max)) (bv _ common1 (bv (13, i64Max) (by decide +kernel) (by decide +kernel)))

theorem seq2 : shortestCurveSequences [⟨1000, -100, 0, 20, 50⟩, ⟨0, 0, 0, 20, 50⟩] =
    some [[⟨7, 20⟩, ⟨1, 9⟩, ⟨5, 0⟩, ⟨1, -1⟩, ⟨6, 0⟩, ⟨1, -8⟩, ⟨2, -20⟩], [⟨23, 0⟩]] := by
  unfold shortestCurveSequences
  refine bv _ (by decide +kernel : _ = some (MultiRange.range i64Min i64Max)) (bv _ common2 (bv (23, i64Max) (by decide +kernel) ?_))
  simp only [List.mapM_cons, List.mapM_nil, back]
  decide +kernel

/-! A run of `svg_path` with a stroke that starts to the left: the limits are 20 and 50, the stroke starts at step -1000 with 100
steps for each tick to the left, and is too short to take a tick. -/

def p0 : Ctx := (Ctx.new (fun _ => 20) (fun _ => 50)).setWeight 12
def p1 : Option Ctx := p0.addWeightChange p0.moveWeight (p0.channels .x).ticks
def p2 : Option Ctx := p1.bind fun c => c.push (c.channels .x).ticks (.weight c.moveWeight)
def p3 : Option Ctx := p2.bind fun c =>
  gotoFollow c [⟨1, -20⟩, ⟨1, -11⟩, ⟨5, 0⟩, ⟨1, -1⟩, ⟨1, 0⟩, ⟨1, -8⟩, ⟨3, -20⟩] [⟨13, 0⟩] (-100) 0
def p4 : Option Ctx := p3.bind fun c => c.addWeightChange c.curveWeight (c.channels .x).ticks
def p5 : Option Ctx := p4.bind fun c => c.addWeightChange c.moveWeight (c.channels .x).ticks
def p6 : Option Ctx := p5.bind fun c => c.push (c.channels .x).ticks (.weight c.moveWeight)
def p7 : Option Ctx := p6.bind fun c =>
  gotoFollow c [⟨7, 20⟩, ⟨1, 9⟩, ⟨5, 0⟩, ⟨1, -1⟩, ⟨6, 0⟩, ⟨1, -8⟩, ⟨2, -20⟩] [⟨23, 0⟩] 0 0
def p8 : Option Ctx := p7.bind fun c => c.ticks.bind fun _ => c.readEvents

def view (c : Ctx) : List ℤ :=
  [(c.channels .x).pos, (c.channels .x).v, (c.channels .y).pos, (c.channels .y).v, c.aMax .x, c.aMax .y, c.vMax .x, c.vMax .y]

theorem goto_of {c c1 : Ctx} {x y vx vy : ℤ} {lx ly : PathLimits} {sx sy : List AccSegment} (hx : vx ≤ c.vMax .x) (hy : vy ≤ c.vMax .y)
    (hp : c.push (c.channels .x).ticks (.weight c.moveWeight) = some c1) (h1 : limits c1 .x x vx = some lx)
    (h2 : limits c1 .y y vy = some ly) (hs : shortestCurveSequences [lx, ly] = some [sx, sy]) :
    stepGotoSpeed c x y vx vy = gotoFollow c1 sx sy vx vy := by
  unfold stepGotoSpeed
  exact ca hx (ca hy (bv c1 hp (bv lx h1 (bv ly h2 (bv _ hs rfl)))))

theorem run_eval : ∃ c1 c3 c4 c5 c7 c8, p0.addWeightChange p0.moveWeight (p0.channels .x).ticks = some c1 ∧
    stepGotoSpeed c1 (-1000) 0 (-100) 0 = some c3 ∧ c3.addWeightChange c3.curveWeight (c3.channels .x).ticks = some c4 ∧
    c4.addWeightChange c4.moveWeight (c4.channels .x).ticks = some c5 ∧ stepGotoSpeed c5 0 0 0 0 = some c7 ∧
    (c7.ticks.bind fun _ => c7.readEvents) = some c8 := by
  have v1 : p1.map view = some [0, 0, 0, 0, 20, 20, 50, 50] := by decide +kernel
  have v2 : p2.map view = some [0, 0, 0, 0, 20, 20, 50, 50] := by decide +kernel
  have v5 : p5.map view = some [-1000, -100, 0, 0, 20, 20, 50, 50] := by decide +kernel
  have v6 : p6.map view = some [-1000, -100, 0, 0, 20, 20, 50, 50] := by decide +kernel
  obtain ⟨c8, h8⟩ := Option.isSome_iff_exists.1 (show p8.isSome = true by decide +kernel)
  obtain ⟨c7, h7, k8⟩ := Option.bind_eq_some_iff.1 h8
  obtain ⟨c6, h6, k7⟩ := Option.bind_eq_some_iff.1 h7
  obtain ⟨c5, h5, k6⟩ := Option.bind_eq_some_iff.1 h6
  obtain ⟨c4, h4, k5⟩ := Option.bind_eq_some_iff.1 h5
  obtain ⟨c3, h3, k4⟩ := Option.bind_eq_some_iff.1 h4
  obtain ⟨c2, h2, k3⟩ := Option.bind_eq_some_iff.1 h3
  obtain ⟨c1, h1, k2⟩ := Option.bind_eq_some_iff.1 h2
  rw [h1] at v1; rw [h2] at v2; rw [h5] at v5; rw [h6] at v6
  simp only [Option.map_some, Option.some.injEq, view, List.cons.injEq] at v1 v2 v5 v6
  refine ⟨c1, c3, c4, c5, c7, c8, h1, ?_, k4, k5, ?_, k8⟩
  · rw [← k3]
    refine goto_of (by omega) (by omega) k2 ?_ ?_ seq1
    · simp [limits, v2, sub, ck, i64Min, i64Max]
    · simp [limits, v2, sub, ck, i64Min, i64Max]
  · rw [← k7]
    refine goto_of (by omega) (by omega) k6 ?_ ?_ seq2
    · simp [limits, v6, sub, ck, i64Min, i64Max]
    · simp [limits, v6, sub, ck, i64Min, i64Max]

end StepperPaths.Checked.Fast
