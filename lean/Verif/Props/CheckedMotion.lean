import Verif.Proof.CheckedMotion
import Verif.Props.Tracking

/-! C89: the motion commands compute with `i64` positions.  In a debug build an overflow panics; a
run that returns has computed the right positions, and for positions and speeds of the size of a
machine no overflow happens. -/

namespace StepperPaths.Props
open StepperPaths Spec Coords Curves Context IntegerCurve Draw

/-! ### Without an overflow the results are right -/

/-- C89: what `add_acc_interval`, `step_goto_speed` and `speed` return in `i64` is what they return
with unbounded integers. -/
theorem C89_sound (c c' : Ctx) :
    (∀ ax ay n, Checked.addAccInterval c ax ay n = some c' → c.addAccInterval ax ay n = some c') ∧
    (∀ x y vx vy, Checked.stepGotoSpeed c x y vx vy = some c' → c.stepGotoSpeed x y vx vy = some c') ∧
    (∀ vx vy, Checked.speed c vx vy = some c' → c.speed vx vy = some c') :=
  ⟨fun ax ay n => Checked.addAccInterval_le c ax ay n c', fun x y vx vy => Checked.stepGotoSpeed_le c x y vx vy c',
    fun vx vy => Checked.speed_le c vx vy c'⟩

/-- C89: `approx_curve` and `draw_curves` leave the machine in the same state and produce the same
events. -/
theorem C89_curves_sound (e : Env) (c c' : Ctx) (v : ℝ) (err : Axis → ℤ) :
    (∀ start curve, Checked.approxCurve e c start curve v = some (c', err) →
      ∃ err', approxCurve e c start curve v = some (c', err')) ∧
    (∀ segs, Checked.drawCurves e c segs v = some (c', err) → ∃ err', drawCurves e c segs v = some (c', err')) := by
  constructor
  · intro start curve h
    obtain ⟨⟨c1, err'⟩, h1, h2⟩ := Checked.approxCurve_le e c start curve v _ h
    cases h2
    exact ⟨err', h1⟩
  · intro segs h
    obtain ⟨⟨c1, err'⟩, h1, h2⟩ := Checked.drawCurves_le e c segs v _ h
    cases h2
    exact ⟨err', h1⟩

/-! ### Sizes without an overflow -/

/-- C89: `add_acc_interval` for positions up to `2^62`, all `i32` speeds, all `i16` accelerations, and
intervals up to `2^23` ticks. -/
theorem C89_interval (c : Ctx) (ax ay : Int) (n : ℕ) (hn : n ≤ 2 ^ 23) (hp : ∀ i, |(c.channels i).pos| ≤ 2 ^ 62)
    (hv : ∀ i, |(c.channels i).v| ≤ 2 ^ 31) (hx : |ax| ≤ 2 ^ 15) (hy : |ay| ≤ 2 ^ 15) :
    Checked.addAccInterval c ax ay n = c.addAccInterval ax ay n :=
  le_antisymm_opt (Checked.addAccInterval_le c ax ay n) (Checked.addAccInterval_ge hn hp hv hx hy)

/-- C89: `speed` for positions up to `2^61`. -/
theorem C89_speed (c : Ctx) (vx vy : Int) (hp : ∀ i, |(c.channels i).pos| ≤ 2 ^ 61) :
    Checked.speed c vx vy = c.speed vx vy :=
  le_antisymm_opt (Checked.speed_le c vx vy) (Checked.speed_ge hp)

/-- C89: `step_goto_speed` for positions up to `2^61`, and distances, speeds and accelerations as in C87. -/
theorem C89_goto (c : Ctx) (x y vx vy : Int)
    (hx : FitsI64 ⟨x - (c.channels .x).pos, (c.channels .x).v, vx, c.aMax .x, c.vMax .x⟩)
    (hy : FitsI64 ⟨y - (c.channels .y).pos, (c.channels .y).v, vy, c.aMax .y, c.vMax .y⟩)
    (hp : ∀ i, |(c.channels i).pos| ≤ 2 ^ 61) (h1 : |x| ≤ 2 ^ 61) (h2 : |y| ≤ 2 ^ 61) :
    Checked.stepGotoSpeed c x y vx vy = c.stepGotoSpeed x y vx vy :=
  le_antisymm_opt (Checked.stepGotoSpeed_le c x y vx vy) (Checked.stepGotoSpeed_ge hx hy hp h1 h2)

/-- C89: a path that is drawn as in C70, by a machine with speeds up to `2^24`, overflows nowhere,
if the error it reports is at most `2^60`. -/
theorem C89_draw (aMax vMax : Axis → ℤ) (hM : Machine aMax vMax) (hb : ∀ i, vMax i ≤ 2 ^ 24) (e : Env) (v : ℝ) (c : Ctx)
    (h : Sync aMax vMax c) (hc : ∀ i, |(c.channels i).v| ≤ vMax i) (hsc : ∀ i, e.stepScale i ≠ 0)
    (S : Vec → Prop) (B : Axis → ℝ) (N : ℕ) (ℓ : ℝ) (segs : List Seg) (hR : Reachable vMax e v B N)
    (hS : InRegion e S B ℓ segs) (hℓ : 0 ≤ ℓ) (h0 : S (startOf e c)) (hl : segs.length * ℓ ≤ v * N) :
    ∃ c' err, drawCurves e c segs v = some (c', err) ∧
      ((∀ i, err i ≤ 2 ^ 60) → Checked.drawCurves e c segs v = some (c', err)) := by
  obtain ⟨c', err, hr, -⟩ := C70_returns aMax vMax hM e v c h hc hsc S B N ℓ segs hR hS hℓ h0 hl
  refine ⟨c', err, hr, fun he => ?_⟩
  have hpos : ∀ i, |((c.channels i).pos : ℝ)| ≤ B i + 3 / 2 + 2 * vMax i * N := by
    intro i
    have h1 := hS.box _ h0 i
    have e1 : coord (startOf e c) i * e.stepScale i = (c.channels i).pos := by
      cases i <;> simp only [startOf, coord, Env.coordFromSteps] <;> exact div_mul_cancel₀ _ (hsc _)
    rw [e1] at h1
    have : (0 : ℝ) ≤ 2 * vMax i * N := by
      have : (1 : ℝ) ≤ vMax i := by exact_mod_cast hM.v1 i
      positivity
    linarith
  unfold drawCurves at hr
  unfold Checked.drawCurves
  split
  · rw [if_pos ‹_›] at hr
    exact hr
  · rw [if_neg ‹_›] at hr
    obtain ⟨s, hs, hr⟩ := Option.bind_eq_some_iff.1 hr
    have e1 : s.maxErr = err := by
      obtain ⟨_, -, hr⟩ := Option.bind_eq_some_iff.1 hr
      cases hr
      rfl
    have key := (Checked.finish_ge (s := Pen.init e c) hM hb hR hS hℓ
      ⟨h, hc, hpos, h0, h0, by simp [Pen.init], by simp [Pen.init, Concat.totalLength],
      by simpa [Pen.init, Concat.totalLength] using hl, by simp [Pen.init]⟩ hs (by rw [e1]; exact he)).2
    have key : Checked.drawPen e c segs v = some s := key
    rw [key]
    exact hr

/-- C89: so a path of gentle curves as in C88 overflows nowhere. -/
theorem C89_gentle (aMax vMax : Axis → ℤ) (hM : Machine aMax vMax) (hb : ∀ i, vMax i ≤ 2 ^ 24) (e : Env) (v : ℝ) (c : Ctx)
    (h : Sync aMax vMax c) (hc : ∀ i, |(c.channels i).v| ≤ vMax i) (hsc : ∀ i, e.stepScale i ≠ 0)
    (R : Vec → Prop) (B : Axis → ℝ) (N : ℕ) (ℓ : ℝ) (segs : List Seg) (hne : segs ≠ [])
    (hR : Reachable vMax e v B N) (hI : InRegion e R B ℓ segs) (hℓ : 0 ≤ ℓ) (h0 : R (startOf e c))
    (hl : segs.length * ℓ ≤ v * N)
    (hfind : ∀ cs : List Curve, (∀ k ∈ cs, 0 < k.length) → ∀ pos, FoundAt (glue cs) pos (e.find (glue cs) pos))
    (κ S : ℝ) (n : ℕ) (hκ : 0 ≤ κ) (hn : 1 ≤ n)
    (hb' : ∀ s, drawPen e c segs v = some s → ∀ st ∈ s.drawn, st.2 ≠ [] →
      n ≤ approxSteps (e.concatInfo st.2) v ∧
      (∀ k ∈ st.2.map Part.curve, 0 < k.length ∧ Bends k κ 0 (v + v / (2 * n))) ∧
      ∀ k ∈ (st.2.map Part.curve).tail.dropLast, v + v / (2 * n) ≤ k.length)
    (h1 : 1 ≤ S) (h2 : S ≤ 10000) (hA : ∀ i, 301 / 100 * S ≤ aMax i)
    (hV : ∀ i, v * |e.vScale i| + 214 / 100 * S ≤ vMax i)
    (hP : ∀ i, v * |e.vScale i| * ((κ * v * (1 + 1 / (2 * n)) ^ 2 / 2 + 873 / 10000 * (1 + 1 / (2 * n)) +
      1 / (2 * n))) ≤ S / 4)
    (hW : ∀ i, v * |e.vScale i| * (κ * v * (1 + 1 / (2 * n)) + 873 / 10000) ≤ S / 4) :
    ∃ c' err, Checked.drawCurves e c segs v = some (c', err) ∧ drawCurves e c segs v = some (c', err) ∧
      ∀ i, (err i : ℝ) ≤ 382 / 100 * S + 1 := by
  obtain ⟨c', err, t, t', q1, -, -, -, q4⟩ := C88_path aMax vMax hM e v c h hc hsc R B N ℓ segs hne hR hI hℓ h0 hl hfind
    κ S n hκ hn hb' h1 h2 hA hV hP hW
  obtain ⟨c1, err1, k1, k2⟩ := C89_draw aMax vMax hM hb e v c h hc hsc R B N ℓ segs hR hI hℓ h0 hl
  rw [q1] at k1
  cases k1
  refine ⟨c', err, k2 fun i => ?_, q1, fun i => (q4 i).1⟩
  have h3 := (q4 i).1
  have h4 : (err i : ℝ) ≤ ((2 ^ 60 : ℤ) : ℝ) := by
    push_cast
    norm_num at *
    linarith
  exact_mod_cast h4

/-- The two lines of C88, in `i64`. -/
example : ∃ c' err, Checked.drawCurves searchEnv (Ctx.new (fun _ => 10) (fun _ => 100))
    [.lineTo ⟨100, 0⟩, .lineTo ⟨412, 25⟩] 4 = some (c', err) ∧ ∀ i, err i ≤ 4 := by
  obtain ⟨c1, err1, t', h1, -, h2⟩ := two_lines
  obtain ⟨c', err, h3, h4⟩ := C89_draw (fun _ => 10) (fun _ => 100)
    ⟨by norm_num, by norm_num, by norm_num, by norm_num, by norm_num⟩ (by norm_num) searchEnv 4
    (Ctx.new (fun _ => 10) (fun _ => 100)) .new (by simp [Ctx.new]) (by simp [searchEnv, unitEnv])
    (fun p => |p.x| ≤ 1000 ∧ |p.y| ≤ 1000) (fun _ => 1000) 10000 4000 [.lineTo ⟨100, 0⟩, .lineTo ⟨412, 25⟩]
    ⟨by norm_num, by norm_num [searchEnv, unitEnv, Env.vScale], by norm_num⟩
    (lines_region searchEnv (fun _ => rfl) _ (by
      simp only [List.mem_cons, List.not_mem_nil, or_false]
      rintro s (rfl | rfl)
      · exact ⟨⟨100, 0⟩, by norm_num, by norm_num, by simp⟩
      · exact ⟨⟨412, 25⟩, by norm_num, by norm_num, by simp⟩)) (by norm_num)
    (by simp [startOf, Ctx.new, Env.coordFromSteps]) (by norm_num)
  rw [h1] at h3
  cases h3
  exact ⟨c1, err1, h4 fun i => ((h2 i).1).trans (by norm_num), fun i => (h2 i).1⟩

/-- One move of 5000 and -3000 steps, and a stop from full speed. -/
example : Checked.stepGotoSpeed (Ctx.new (fun _ => 10) (fun _ => 100)) 5000 (-3000) 20 0 =
    (Ctx.new (fun _ => 10) (fun _ => 100)).stepGotoSpeed 5000 (-3000) 20 0 :=
  C89_goto _ _ _ _ _ ⟨by decide, by decide, by decide, by decide, by decide, by decide, by decide⟩
    ⟨by decide, by decide, by decide, by decide, by decide, by decide, by decide⟩ (fun _ => by norm_num [Ctx.new])
    (by norm_num) (by norm_num)

example : Checked.speed ((Ctx.new (fun _ => 10) (fun _ => 100)).setCh .x ⟨2 ^ 60, 57, 0⟩) 0 0 =
    ((Ctx.new (fun _ => 10) (fun _ => 100)).setCh .x ⟨2 ^ 60, 57, 0⟩).speed 0 0 :=
  C89_speed _ _ _ (fun i => by cases i <;> simp [Ctx.new, Ctx.setCh])

example : Checked.speedChannel ⟨2 ^ 60, 57, 0⟩ 10 0 = some (⟨2 ^ 60 + 327, 0, 0⟩, [⟨5, -10⟩, ⟨1, -7⟩]) := by decide

/-! ### Larger sizes -/

/-- C89: longer intervals do overflow: accelerating from rest by 1 for at least 3037000500 ticks, which
`interval: u32` allows, panics in a debug build. -/
theorem C89_overflow (aMax vMax : Axis → ℤ) (n : ℕ) (h : 3037000500 ≤ n) :
    Checked.addAccInterval (Ctx.new aMax vMax) 1 0 n = none := by
  have h1 : Checked.mul (some (n : Int)) (some (n : Int)) = none := by
    have : (3037000500 : Int) * 3037000500 ≤ n * n :=
      mul_le_mul (by exact_mod_cast h) (by exact_mod_cast h) (by norm_num) (by positivity)
    exact if_neg fun hk => by
      have := hk.2
      unfold i64Max at this
      omega
  have h2 : Checked.addAccChannel (Ctx.new aMax vMax) .x 1 n = none := by
    unfold Checked.addAccChannel
    have h3 : ∀ o, Checked.add o (Checked.mul none (some 1)) = none := fun o => by cases o <;> rfl
    have h4 : ∀ o, Checked.add o none = none := fun o => by cases o <;> rfl
    simp only [h1, h3, h4]
    rfl
  unfold Checked.addAccInterval cassert
  rw [if_pos (by omega)]
  simp only [h2, Option.bind_eq_bind, Option.bind_some, Option.bind_none]

/-- One tick less does not. -/
example : ∃ c, Checked.addAccInterval (Ctx.new (fun _ => 10) (fun _ => 100)) 1 0 3037000499 = some c ∧
    (c.channels .x).pos = 9223372030926249001 := ⟨_, rfl, rfl⟩

end StepperPaths.Props
