import Verif.Proof.RoundedPath
import Verif.Props.Rounded
import Verif.Props.Draw

/-! Which strokes `draw_curves` draws with rounding (C91), as C64 and C66 in exact arithmetic. -/

namespace StepperPaths.Props
open StepperPaths Coords Curves Context IntegerCurve Draw Spec

theorem rounded_drawPen_eq (fl : ℝ → ℝ) (e : Rounded.Env) (c : Ctx) (segs : List Seg) (v : ℝ) :
    Rounded.drawPen fl e c segs v = Rounded.finish fl e v segs (Rounded.init fl e c) := rfl

/-- C91: with rounding, `draw_curves` draws exactly the given segments, in the given order: the strokes
are made of consecutive groups of them, each with its own shape, and each stroke starts where the
first of its segments does, up to 0.000001000001 for each closing line that was too short to be drawn.
Moves may be left out, but only when the machine is at their target. -/
theorem C91_draws (fl : ℝ → ℝ) (R : FloatRounding fl) (aMax vMax : Axis → ℤ) (e : Rounded.Env) (c : Ctx)
    (h : Sync aMax vMax c) (segs : List Seg) (v : ℝ) (s : Pen) (hr : Rounded.drawPen fl e c segs v = some s) :
    ∃ segs' n l groups,
      Omit (FloatVisited fl e s.ctx.events (c.channels .x).ticks (s.ctx.channels .x).ticks) segs segs' ∧
      FloatIntended e (floatStart fl e c) segs' n l ∧ groups.flatten = l ∧
      List.Forall₂ (FloatGroup fl e (n * (1 / 1000000 + 1 / 10 ^ 12))) groups (curvesOf s.drawn) := by
  rw [rounded_drawPen_eq] at hr
  obtain ⟨segs', n, l, G, D, h1, h2, h3, h4, h5⟩ := Rounded.finish_groups (k := 0) (g := []) R
    (s := Rounded.init fl e c) h le_rfl hr ⟨.nil, by simp⟩ (fun _ => within_refl (by simp) _)
  refine ⟨segs', n, l, G, h1, h2, by simpa using h4, ?_⟩
  simp only [Rounded.init, List.nil_append] at h3
  rw [h3]
  simp only [Nat.zero_add] at h5
  exact h5

/-- C91: without moves in the list nothing is left out. -/
theorem C91_draws_all (fl : ℝ → ℝ) (R : FloatRounding fl) (aMax vMax : Axis → ℤ) (e : Rounded.Env) (c : Ctx)
    (h : Sync aMax vMax c) (segs : List Seg) (hg : ∀ p, Seg.goTo p ∉ segs) (v : ℝ) (s : Pen)
    (hr : Rounded.drawPen fl e c segs v = some s) :
    ∃ n l groups, FloatIntended e (floatStart fl e c) segs n l ∧ groups.flatten = l ∧
      List.Forall₂ (FloatGroup fl e (n * (1 / 1000000 + 1 / 10 ^ 12))) groups (curvesOf s.drawn) := by
  obtain ⟨segs', n, l, G, h1, h2⟩ := C91_draws fl R aMax vMax e c h segs v s hr
  rw [omit_none h1 hg] at h2
  exact ⟨n, l, G, h2⟩

/-- C91: a line, as it is computed, has the length and the direction of the line between the two
points, and it is traversed evenly, up to a few units in the last place. -/
theorem C91_line (fl : ℝ → ℝ) (R : FloatRounding fl) (e : Rounded.Env) (p q : Vec) (hpq : 1 / 2 ^ 40 ≤ (q - p).length) :
    ∃ k, Rounded.segInfo fl e p (.lineTo q) = some (k, q) ∧ Rounded.segInfo fl e p (.closeTo q) = some (k, q) ∧
      |k.length - (q - p).length| ≤ 9 * (q - p).length / 2 ^ 52 ∧
      ∀ i s, |coord (k.value s).2 i - coord (q - p) i / (q - p).length| ≤ 13 / 2 ^ 52 ∧
        (|s| ≤ 2 * (q - p).length →
          |coord (k.value s).1 i - coord (q - p) i * (s / (q - p).length)| ≤ 30 * (q - p).length / 2 ^ 52) := by
  obtain ⟨h1, h2⟩ := Rounded.line_near R hpq
  set ℓ := (q - p).length with hℓ
  have hℓ0 : 0 < ℓ := lt_of_lt_of_le (by norm_num) hpq
  refine ⟨_, rfl, rfl, h1, fun i s => ?_⟩
  have hne : Rounded.vlength fl (Rounded.vsub fl q p) ≠ 0 := by
    have := (abs_le.1 h1).1
    have : 0 < Rounded.vlength fl (Rounded.vsub fl q p) := by linarith
    exact this.ne'
  have hD := Rounded.le_length (q - p) i
  rw [← hℓ] at hD
  have hDℓ : |coord (q - p) i / ℓ| ≤ 1 := by
    rw [abs_div, abs_of_pos hℓ0, div_le_one hℓ0]
    exact hD
  have h3 := h2 i
  simp only [Rounded.line, if_neg hne]
  refine ⟨h3, fun hs => ?_⟩
  have ev : coord (Rounded.vmul fl (Rounded.vunit fl (Rounded.vsub fl q p)) s) i =
      fl (coord (Rounded.vunit fl (Rounded.vsub fl q p)) i * s) := by cases i <;> rfl
  rw [ev]
  set u := coord (Rounded.vunit fl (Rounded.vsub fl q p)) i with hu
  have hu2 : |u| ≤ 2 := by
    have a := abs_le.1 h3
    have b := abs_le.1 hDℓ
    rw [abs_le]
    norm_num at *
    constructor <;> linarith
  have m : |u * s| ≤ 4 * ℓ := by
    rw [abs_mul]
    calc |u| * |s| ≤ 2 * (2 * ℓ) := mul_le_mul hu2 hs (abs_nonneg _) (by norm_num)
      _ = 4 * ℓ := by ring
  have e1 := R.rel m (le_trans (by norm_num) (show 1 / 2 ^ 40 ≤ 4 * ℓ by linarith))
  have e2 : |u * s - coord (q - p) i * (s / ℓ)| ≤ 26 * ℓ / 2 ^ 52 := by
    rw [show u * s - coord (q - p) i * (s / ℓ) = (u - coord (q - p) i / ℓ) * s by ring, abs_mul]
    calc |u - coord (q - p) i / ℓ| * |s| ≤ 13 / 2 ^ 52 * (2 * ℓ) := mul_le_mul h3 hs (abs_nonneg _) (by norm_num)
      _ = _ := by ring
  have a := abs_le.1 e1
  have b := abs_le.1 e2
  rw [abs_le]
  constructor <;> linarith

/-- C91: within a stroke there are no corners: where two curves meet, the cosine of the angle
between their directions is more than 0.99619, up to rounding. -/
theorem C91_no_corner_inside (fl : ℝ → ℝ) (R : FloatRounding fl) (e : Rounded.Env) (c : Ctx) (segs : List Seg) (v : ℝ)
    (s : Pen) (hr : Rounded.drawPen fl e c segs v = some s) :
    ∀ st ∈ s.drawn, List.IsChain (fun a b => HasDirs a b → 99619 / 100000 - 1 / 10 ^ 12 < cosBetween a b)
      (st.2.map Part.curve) := by
  rw [rounded_drawPen_eq] at hr
  have := Rounded.finish_smooth R hr (by intro part hp; simp [Rounded.init] at hp)
    (by simp [Rounded.Smooth, Rounded.init]) (by simp [Rounded.init])
  intro st hst
  rw [List.isChain_map]
  exact this st hst

/-- C91: without moves, a stroke only ends at a corner. -/
theorem C91_ends_at_corner (fl : ℝ → ℝ) (R : FloatRounding fl) (e : Rounded.Env) (c : Ctx) (segs : List Seg)
    (hg : ∀ p, Seg.goTo p ∉ segs) (v : ℝ) (s : Pen) (hr : Rounded.drawPen fl e c segs v = some s) :
    List.IsChain (fun a b => ∃ x ∈ (a.2.map Part.curve).getLast?, ∃ y ∈ (b.2.map Part.curve).head?,
      HasDirs x y → cosBetween x y < 99619 / 100000 + 1 / 10 ^ 12) s.drawn := by
  rw [rounded_drawPen_eq] at hr
  have := Rounded.finish_corners R hr hg (by intro part hp; simp [Rounded.init] at hp)
    (by simp [Rounded.init]) (by simp [Rounded.init])
  refine this.imp ?_
  rintro a b ⟨x, hx, y, hy, hc⟩
  refine ⟨x.curve, ?_, y.curve, ?_, hc⟩
  · rw [Option.mem_def] at *
    rw [List.getLast?_map, hx]
    rfl
  · rw [Option.mem_def] at *
    rw [List.head?_map, hy]
    rfl

/-- Three sides of a square; the last of the four lines is too short. -/
example (e : Rounded.Env) : FloatIntended e ⟨0, 0⟩
    [.lineTo ⟨1, 0⟩, .lineTo ⟨1, 1⟩, .goTo ⟨5, 5⟩, .lineTo ⟨6, 5⟩, .closeTo ⟨6, 5 + 1 / 10 ^ 7⟩] 1
    [(⟨0, 0⟩, .lineTo ⟨1, 0⟩), (⟨1, 0⟩, .lineTo ⟨1, 1⟩), (⟨5, 5⟩, .lineTo ⟨6, 5⟩)] := by
  refine .draw trivial rfl (.draw trivial rfl (.move (.draw trivial rfl (.short ?_ (.nil _)))))
  have := Rounded.length_le (⟨6, 5⟩ - ⟨6, 5 + 1 / 10 ^ 7⟩ : Vec)
  refine this.trans ?_
  show |(6 : ℝ) - 6| + |(5 : ℝ) - (5 + 1 / 10 ^ 7)| ≤ _
  norm_num [abs_of_neg]

end StepperPaths.Props
