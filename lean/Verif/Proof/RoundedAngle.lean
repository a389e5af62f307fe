import Verif.Proof.RoundedChord
import Verif.Props.SvgArc
import Verif.Spec.RoundedAngles
import Mathlib.Analysis.SpecialFunctions.Trigonometric.Arctan
import Mathlib.Analysis.SpecialFunctions.Trigonometric.Bounds

/-!
The image of a circle and the angles of an arc, `svg_path_parser.rs` 417-458 and 771-788, with rounding.
-/

namespace StepperPaths.Rounded.Acc
open Spec Coords Svg

variable {fl : ℝ → ℝ} {lib : Lib} {k l n m : ℕ}

/-- The image of a circle under an even scale is a circle, with half axes that are exactly equal. -/
theorem ellipse_near (hf : FloatRounding fl) (hl : FloatAngles lib) {r' r s' s : ℝ} (hr : App k 20 r' r r) (hs : App l 20 s' s s)
    (r0 : 1 / 2 ^ 20 ≤ r) (r1 : r ≤ 2 ^ 20) (s0 : 1 / 2 ^ 20 ≤ s) (s1 : s ≤ 2 ^ 20) (hk : k ≤ 2 ^ 40) (hl' : l ≤ 2 ^ 40) :
    ∃ R', transformEllipseF fl lib r' r' 0 ⟨s', 0, 0, s'⟩ = some (R', R', 0) ∧ App (8 * k + 20 * l + 24) 40 R' (r * s) (r * s) := by
  have rp : 0 < r := lt_of_lt_of_le (by positivity) r0
  have sp : 0 < s := lt_of_lt_of_le (by positivity) s0
  have z := fl_zero hf
  have o : fl 1 = 1 := by simpa using hf.int 1 (by norm_num)
  have hid := hf.idem
  -- the form of the circle
  have h1 := hr.mulr hr hf (by norm_num)
  have rr : |r * r| = r * r := abs_of_pos (by positivity)
  have h1' : App (k + k + 1) (20 + 20) (fl (r' * r')) (r * r) |r * r| := by rw [rr]; exact h1
  have h2 := (h1'.inv (by positivity) (g_half (by omega)) (m := 40) (by rw [rr]; nlinarith)).rnd hf (by norm_num)
  rw [rr] at h2
  obtain ⟨A, hA⟩ : ∃ A, A = fl (1 / fl (r' * r')) := ⟨_, rfl⟩
  have flA : fl A = A := by rw [hA, hid]
  have form : ellipseFormF fl lib r' r' 0 = ⟨A, 0, 0, A⟩ := by
    simp only [ellipseFormF, hl.sin, hl.cos, mul_zero, mul_one, zero_div, z, o, add_zero, zero_add, ← hA, flA, sub_self]
  rw [← hA] at h2
  -- the inverse
  have h3 := hs.mulr hs hf (by norm_num)
  have ss : |s * s| = s * s := abs_of_pos (by positivity)
  have h3' : App (l + l + 1) (20 + 20) (fl (s' * s')) (s * s) |s * s| := by rw [ss]; exact h3
  have hd0 : fl (s' * s') ≠ 0 := by
    intro h0
    have := h3.err
    rw [h0, zero_sub, abs_neg, ss] at this
    have g1 : g (l + l + 1) ≤ 1 / 2 := g_half (by omega)
    nlinarith [mul_pos sp sp]
  have h4 := hs.mulr (h3'.inv (by positivity) (g_half (by omega)) (m := 40) (by rw [ss]; nlinarith)) hf (by norm_num)
  rw [ss, mul_one_div] at h4
  obtain ⟨i, hi⟩ : ∃ i, i = fl (s' / fl (s' * s')) := ⟨_, rfl⟩
  rw [← hi, show s * (1 / (s * s)) = 1 / s by field_simp] at h4
  have inv : invert2x2F fl ⟨s', 0, 0, s'⟩ = some ⟨i, 0, 0, i⟩ := by
    simp only [invert2x2F, mul_zero, z, sub_zero, hid, if_neg hd0, neg_zero, zero_div, ← hi]
  -- the product
  have h5 := (h4.mulr h2 hf (by norm_num)).mulr h4 hf (by norm_num)
  obtain ⟨Q, hQ⟩ : ∃ Q, Q = fl (fl (i * A) * i) := ⟨_, rfl⟩
  have flQ : fl Q = Q := by rw [hQ, hid]
  rw [← hQ, show 1 / s * (1 / (r * r)) * (1 / s) = 1 / (r * s) ^ 2 by field_simp] at h5
  have mul : mul2x2F fl (mul2x2F fl (transpose2x2 ⟨i, 0, 0, i⟩) ⟨A, 0, 0, A⟩) ⟨i, 0, 0, i⟩ = ⟨Q, 0, 0, Q⟩ := by
    simp only [mul2x2F, transpose2x2, mul_zero, zero_mul, z, add_zero, zero_add, hid]; rw [hQ]
  -- the half axes
  have rs0 : 0 < r * s := mul_pos rp sp
  have q0 : 0 < 1 / (r * s) ^ 2 := by positivity
  have rs40 : r * s ≤ 2 ^ 40 := by
    calc r * s ≤ 2 ^ 20 * 2 ^ 20 := by gcongr
      _ = 2 ^ 40 := by norm_num
  have rs1 : 1 / 2 ^ 40 ≤ r * s := by
    calc (1 : ℝ) / 2 ^ 40 = 1 / 2 ^ 20 * (1 / 2 ^ 20) := by norm_num
      _ ≤ _ := by gcongr
  have q1 : 1 / (r * s) ^ 2 ≤ 2 ^ 80 := by
    rw [div_le_iff₀ (by positivity)]
    have : (1 / 2 ^ 40 : ℝ) ^ 2 ≤ (r * s) ^ 2 := by gcongr
    calc (1 : ℝ) = 2 ^ 80 * (1 / 2 ^ 40) ^ 2 := by norm_num
      _ ≤ _ := by gcongr
  have qa : |1 / (r * s) ^ 2| = 1 / (r * s) ^ 2 := abs_of_pos q0
  have h6 := ((show App _ _ Q (1 / (r * s) ^ 2) |1 / (r * s) ^ 2| by rw [qa]; exact h5).inv q0.ne' (g_half (by omega)) (m := 80)
    (by rw [qa]; exact q1)).rnd hf (by norm_num)
  rw [qa, one_div_one_div] at h6
  have Q0 : 0 < Q := by
    have := h5.err
    have hg : g (l + 2 * (l + l + 1) + 1 + (2 * (k + k + 1) + 1) + 1 + (l + 2 * (l + l + 1) + 1) + 1) ≤ 1 / 2 := g_half (by omega)
    have h7 := neg_abs_le (Q - 1 / (r * s) ^ 2)
    nlinarith
  have axes : formAxesF fl lib ⟨Q, 0, 0, Q⟩ = some (fl √(fl (1 / Q)), fl √(fl (1 / Q)), 0) := by
    simp only [formAxesF, neg_zero, zero_mul, z, sub_self, hl.zero, zero_div, hl.sin, hl.cos, mul_zero, mul_one, o, add_zero, flQ,
      if_neg (not_le.2 Q0), zero_add]
  refine ⟨fl √(fl (1 / Q)), ?_, ?_⟩
  · unfold transformEllipseF
    rw [inv, form, Option.bind_some, mul, axes]
  · have hg : g (2 * (l + 2 * (l + l + 1) + 1 + (2 * (k + k + 1) + 1) + 1 + (l + 2 * (l + l + 1) + 1) + 1) + 1) ≤ 1 / 2 := g_half (by omega)
    have h8 := h6.err
    have h7 := neg_abs_le (fl (1 / Q) - (r * s) ^ 2)
    have m0 : 0 ≤ fl (1 / Q) := by nlinarith [pow_pos rs0 2]
    have h9 := sqrt_near rs0 le_rfl h8 m0
    rw [Real.sqrt_sq rs0.le] at h9
    have h10 : App (2 * (l + 2 * (l + l + 1) + 1 + (2 * (k + k + 1) + 1) + 1 + (l + 2 * (l + l + 1) + 1) + 1) + 1) 40 √(fl (1 / Q)) (r * s) (r * s) := by
      refine ⟨(abs_of_pos rs0).le, h9.trans (le_of_eq ?_), .inl rs1⟩
      field_simp
    exact (h10.rnd hf (by norm_num)).mono (by omega) le_rfl

theorem arctan_le (x : ℝ) : |Real.arctan x| ≤ |x| := by
  have key : ∀ y : ℝ, 0 ≤ y → Real.arctan y ≤ y := by
    intro y hy
    have h := Real.le_tan (Real.arctan_nonneg.2 hy) (Real.arctan_lt_pi_div_two y)
    rwa [Real.tan_arctan] at h
  rcases le_total 0 x with h | h
  · rw [abs_of_nonneg h, abs_of_nonneg (Real.arctan_nonneg.2 h)]; exact key x h
  · have h1 := key (-x) (by linarith)
    rw [Real.arctan_neg] at h1
    rw [abs_of_nonpos h, abs_of_nonpos (by have := Real.arctan_nonneg.2 (show 0 ≤ -x by linarith); rw [Real.arctan_neg] at this; linarith)]
    exact h1

/-- The angle of a point near the unit circle is close to an angle of the point on the circle. -/
theorem angle_near (hl : FloatAngles lib) {cx sy x' y' e : ℝ} (hc : cx ^ 2 + sy ^ 2 = 1) (hx : |x' - cx| ≤ e) (hy : |y' - sy| ≤ e)
    (he : e ≤ 1 / 8) : ∃ α, Real.cos α = cx ∧ Real.sin α = sy ∧ |lib.atan2 y' x' - α| ≤ 4 * e + 1 / 2 ^ 50 ∧
      |lib.atan2 y' x'| ≤ Real.pi + 1 / 2 ^ 50 := by
  have c1 : |cx| ≤ 1 := abs_le_one_iff_mul_self_le_one.2 (by nlinarith [sq_nonneg sy])
  have s1 : |sy| ≤ 1 := abs_le_one_iff_mul_self_le_one.2 (by nlinarith [sq_nonneg cx])
  have e0 : 0 ≤ e := (abs_nonneg _).trans hx
  obtain ⟨re, hre⟩ : ∃ re, re = cx * x' + sy * y' := ⟨_, rfl⟩
  obtain ⟨im, him⟩ : ∃ im, im = sy * x' - cx * y' := ⟨_, rfl⟩
  have b1 : |cx * (x' - cx)| ≤ e := by rw [abs_mul]; nlinarith [abs_nonneg (x' - cx), abs_nonneg cx]
  have b2 : |sy * (y' - sy)| ≤ e := by rw [abs_mul]; nlinarith [abs_nonneg (y' - sy), abs_nonneg sy]
  have b3 : |sy * (x' - cx)| ≤ e := by rw [abs_mul]; nlinarith [abs_nonneg (x' - cx), abs_nonneg sy]
  have b4 : |cx * (y' - sy)| ≤ e := by rw [abs_mul]; nlinarith [abs_nonneg (y' - sy), abs_nonneg cx]
  have re1 : 3 / 4 ≤ re := by
    have := neg_abs_le (cx * (x' - cx))
    have := neg_abs_le (sy * (y' - sy))
    have : re = 1 + cx * (x' - cx) + sy * (y' - sy) := by rw [hre]; linear_combination hc
    linarith
  have im1 : |im| ≤ 2 * e := by
    have : im = sy * (x' - cx) - cx * (y' - sy) := by rw [him]; ring
    rw [this]
    exact (abs_sub _ _).trans (by linarith)
  have nz : ¬ (x' = 0 ∧ y' = 0) := by
    rintro ⟨rfl, rfl⟩
    rw [hre] at re1
    norm_num at re1
  obtain ⟨ρ, hρ⟩ : ∃ ρ, ρ = √(x' ^ 2 + y' ^ 2) := ⟨_, rfl⟩
  have rp : 0 < x' ^ 2 + y' ^ 2 := by
    have h := sq_nonneg x'
    have h' := sq_nonneg y'
    rcases h.lt_or_eq with h1 | h1
    · linarith
    · rcases h'.lt_or_eq with h2 | h2
      · linarith
      · exact absurd ⟨by simpa using h1.symm, by simpa using h2.symm⟩ nz
  have ρ0 : 0 < ρ := hρ ▸ Real.sqrt_pos.2 rp
  have ρ2 : ρ ^ 2 = x' ^ 2 + y' ^ 2 := hρ ▸ Real.sq_sqrt rp.le
  have hz : (⟨x', y'⟩ : ℂ) ≠ 0 := by
    intro h
    exact nz ⟨congrArg Complex.re h, congrArg Complex.im h⟩
  have hn : ‖(⟨x', y'⟩ : ℂ)‖ = ρ := by
    rw [Complex.norm_def, Complex.normSq_mk, hρ]; congr 1; ring
  have ca : ρ * Real.cos (Vec.atan2 y' x') = x' := by
    simp only [Vec.atan2]
    rw [Complex.cos_arg hz, hn]; field_simp
  have sa : ρ * Real.sin (Vec.atan2 y' x') = y' := by
    simp only [Vec.atan2]
    rw [Complex.sin_arg, hn]; field_simp
  have ra : |Vec.atan2 y' x'| ≤ Real.pi := Complex.abs_arg_le_pi _
  obtain ⟨a, ca, sa, ra, ha⟩ : ∃ a, ρ * Real.cos a = x' ∧ ρ * Real.sin a = y' ∧ |a| ≤ Real.pi ∧ |lib.atan2 y' x' - a| ≤ 1 / 2 ^ 50 := by
    rcases hl.near y' x' nz with h | ⟨h1, h2, h3⟩
    · exact ⟨_, ca, sa, ra, h⟩
    · refine ⟨-Real.pi, ?_, ?_, by rw [abs_neg, abs_of_pos Real.pi_pos], by rwa [sub_neg_eq_add]⟩
      · have : ρ = -x' := by rw [hρ, h1]; rw [zero_pow two_ne_zero, add_zero, Real.sqrt_sq_eq_abs, abs_of_neg h2]
        rw [Real.cos_neg, Real.cos_pi, this]; ring
      · rw [Real.sin_neg, Real.sin_pi, h1]; ring
  have hq : re ^ 2 + im ^ 2 = ρ ^ 2 := by
    rw [ρ2, hre, him]; linear_combination (x' ^ 2 + y' ^ 2) * hc
  have rp' : 0 < re := by linarith
  have hsq : √(1 + (im / re) ^ 2) = ρ / re := by
    rw [show 1 + (im / re) ^ 2 = (ρ / re) ^ 2 by rw [div_pow, div_pow, ← hq]; field_simp]
    exact Real.sqrt_sq (by positivity)
  have hcos : ρ * Real.cos (Real.arctan (im / re)) = re := by
    rw [Real.cos_arctan, hsq]; field_simp
  have hsin : ρ * Real.sin (Real.arctan (im / re)) = im := by
    rw [Real.sin_arctan, hsq]; field_simp
  have hphi : |Real.arctan (im / re)| ≤ 4 * e := by
    refine (arctan_le _).trans ?_
    rw [abs_div, abs_of_pos rp', div_le_iff₀ rp']
    nlinarith
  refine ⟨a + Real.arctan (im / re), ?_, ?_, ?_, ?_⟩
  · apply mul_left_cancel₀ (pow_ne_zero 2 ρ0.ne')
    rw [Real.cos_add]
    calc _ = (ρ * Real.cos a) * (ρ * Real.cos (Real.arctan (im / re))) - (ρ * Real.sin a) * (ρ * Real.sin (Real.arctan (im / re))) := by ring
      _ = _ := by rw [ca, sa, hcos, hsin, hre, him, ρ2]; ring
  · apply mul_left_cancel₀ (pow_ne_zero 2 ρ0.ne')
    rw [Real.sin_add]
    calc _ = (ρ * Real.sin a) * (ρ * Real.cos (Real.arctan (im / re))) + (ρ * Real.cos a) * (ρ * Real.sin (Real.arctan (im / re))) := by ring
      _ = _ := by rw [ca, sa, hcos, hsin, hre, him, ρ2]; ring
  · calc _ = |(lib.atan2 y' x' - a) - Real.arctan (im / re)| := by congr 1; ring
      _ ≤ _ := (abs_sub _ _).trans (by linarith)
  · calc _ = |(lib.atan2 y' x' - a) + a| := by congr 1; ring
      _ ≤ _ := (abs_add_le _ _).trans (by linarith)

/-! ### The choice of the arc -/

open Classical in
/-- The second angle of the arc that is long or short, as it has to be. -/
noncomputable def other (large : Prop) (b1 b2 : ℝ) : ℝ :=
  if Xor large (|b2 - b1| > Real.pi) then (if b1 < b2 then b2 - 2 * Real.pi else b2 + 2 * Real.pi) else b2

open Classical in
/-- Both angles, in the right order. -/
noncomputable def ordered (sweep : Prop) (b1 b3 : ℝ) : ℝ × ℝ := if Xor sweep (b3 > b1) then (b3 + Real.pi, b1 + Real.pi) else (b1, b3)

theorem other_spec (large : Prop) {b1 b2 : ℝ} (hne : b1 ≠ b2) (hlt : |b2 - b1| < 2 * Real.pi) :
    Real.cos (other large b1 b2) = Real.cos b2 ∧ Real.sin (other large b1 b2) = Real.sin b2 ∧
    (large → Real.pi ≤ |other large b1 b2 - b1|) ∧ (¬ large → |other large b1 b2 - b1| ≤ Real.pi) ∧
      |other large b1 b2 - b1| < 2 * Real.pi := by
  have hpi := Real.pi_pos
  have f1 : Real.cos (other large b1 b2) = Real.cos b2 ∧ Real.sin (other large b1 b2) = Real.sin b2 := by
    unfold other
    split
    · split
      · exact ⟨Real.cos_sub_two_pi _, Real.sin_sub_two_pi _⟩
      · exact ⟨Real.cos_add_two_pi _, Real.sin_add_two_pi _⟩
    · exact ⟨rfl, rfl⟩
  refine ⟨f1.1, f1.2, ?_⟩
  unfold other
  by_cases hl : large <;> by_cases hb : |b2 - b1| > Real.pi
  · rw [if_neg (by simp [Xor, hl, hb])]
    exact ⟨fun _ => hb.le, fun h => absurd hl h, hlt⟩
  · rw [if_pos (by simp only [Xor, hl, hb]; simp)]
    rw [not_lt] at hb
    split
    · next h =>
      rw [abs_of_pos (by linarith)] at hb
      rw [abs_of_neg (by linarith)]
      exact ⟨fun _ => by linarith, fun h => absurd hl h, by linarith⟩
    · next h =>
      have h := lt_of_le_of_ne (not_lt.1 h) hne.symm
      rw [abs_of_neg (by linarith)] at hb
      rw [abs_of_pos (by linarith)]
      exact ⟨fun _ => by linarith, fun h => absurd hl h, by linarith⟩
  · rw [if_pos (by simp only [Xor, hl, hb]; simp)]
    split
    · next h =>
      rw [abs_of_pos (by linarith)] at hb hlt
      rw [abs_of_neg (by linarith)]
      exact ⟨fun h => absurd h hl, fun _ => by linarith, by linarith⟩
    · next h =>
      have h := lt_of_le_of_ne (not_lt.1 h) hne.symm
      rw [abs_of_neg (by linarith)] at hb hlt
      rw [abs_of_pos (by linarith)]
      exact ⟨fun h => absurd h hl, fun _ => by linarith, by linarith⟩
  · rw [if_neg (by simp only [Xor, hl, hb]; simp)]
    exact ⟨fun h => absurd h hl, fun _ => not_lt.1 hb, hlt⟩

theorem ordered_spec {R : ℝ} (large sweep : Prop) {b1 b3 : ℝ} (hne : b1 ≠ b3) (hlong : large → Real.pi ≤ |b3 - b1|)
    (hshort : ¬ large → |b3 - b1| ≤ Real.pi) (hturn : |b3 - b1| < 2 * Real.pi) :
    Props.ArcAngles R R (R * Real.cos b3 - R * Real.cos b1) (R * Real.sin b3 - R * Real.sin b1) large sweep
      (ordered sweep b1 b3).1 (ordered sweep b1 b3).2 := by
  unfold ordered
  split
  · next hs =>
    have e : b1 + Real.pi - (b3 + Real.pi) = -(b3 - b1) := by ring
    refine ⟨?_, ?_, ?_, ?_, ?_, ?_, ?_⟩
    · simp only [Real.cos_add_pi]; ring
    · simp only [Real.sin_add_pi]; ring
    · intro h
      rcases hs with ⟨_, h2⟩ | ⟨_, h2⟩
      · have := lt_of_le_of_ne (not_lt.1 h2) hne.symm
        show b3 + Real.pi < b1 + Real.pi
        linarith
      · exact absurd h h2
    · intro h
      rcases hs with ⟨h1, _⟩ | ⟨h1, _⟩
      · exact absurd h1 h
      · show b1 + Real.pi < b3 + Real.pi
        linarith
    all_goals simp only [e, abs_neg]
    exacts [hlong, hshort, hturn]
  · next hs =>
    refine ⟨rfl, rfl, ?_, ?_, hlong, hshort, hturn⟩
    · intro h
      by_contra hn
      exact hs (.inl ⟨h, fun h' => hn h'⟩)
    · intro h
      by_contra hn
      exact hs (.inr ⟨lt_of_le_of_ne (not_lt.1 hn) hne, h⟩)

theorem fl_small (hf : FloatRounding fl) {x : ℝ} (hx : |x| ≤ 16) : |fl x - x| ≤ 1 / 2 ^ 48 := by
  refine (hf.near x).trans ?_
  have h : (2⁻¹ : ℝ) ^ 1075 ≤ 2⁻¹ ^ 49 := pow_le_pow_of_le_one (by norm_num) (by norm_num) (by norm_num)
  refine (add_le_add (mul_le_mul_of_nonneg_left hx (by positivity)) h).trans ?_
  norm_num

open Classical in
/-- `other` with rounding. -/
noncomputable def otherF (fl : ℝ → ℝ) (large : Prop) (a1 a2 : ℝ) : ℝ :=
  if Xor large (|fl (a2 - a1)| > fl Real.pi) then
    (if a1 < a2 then fl (a2 - fl (2 * fl Real.pi)) else fl (a2 + fl (2 * fl Real.pi)))
  else a2

open Classical in
/-- `ordered` with rounding. -/
noncomputable def orderedF (fl : ℝ → ℝ) (sweep : Prop) (a1 a3 : ℝ) : ℝ × ℝ :=
  if Xor sweep (a3 > a1) then (fl (a3 + fl Real.pi), fl (a1 + fl Real.pi)) else (a1, a3)

/-- The choice, with rounding. -/
noncomputable def chosenF (fl : ℝ → ℝ) (large sweep : Prop) (a1 a2 : ℝ) : ℝ × ℝ := orderedF fl sweep a1 (otherF fl large a1 a2)

theorem arcAnglesF_chosen (rx ry : ℝ) (p1 p2 : Vec) (large sweep : Prop) : arcAnglesF fl lib rx ry p1 p2 large sweep =
    chosenF fl large sweep (lib.atan2 (fl (p1.y / ry)) (fl (p1.x / rx))) (lib.atan2 (fl (p2.y / ry)) (fl (p2.x / rx))) := rfl

/-- The same arc is chosen as without rounding, when the angles are not too close to each other and to half a turn. -/
theorem chosen_near (hf : FloatRounding fl) (large sweep : Prop) {a1 a2 b1 b2 E δ : ℝ} (h1 : |a1 - b1| ≤ E) (h2 : |a2 - b2| ≤ E)
    (r1 : |a1| ≤ 4) (r2 : |a2| ≤ 4) (hE : 2 * E + 1 / 2 ^ 40 ≤ δ)
    (d0 : δ ≤ |b2 - b1|) (d1 : δ ≤ |b2 - b1 - 2 * Real.pi|) (d2 : δ ≤ |b2 - b1 + 2 * Real.pi|)
    (d3 : δ ≤ |b2 - b1 - Real.pi|) (d4 : δ ≤ |b2 - b1 + Real.pi|) :
    |(chosenF fl large sweep a1 a2).1 - (ordered sweep b1 (other large b1 b2)).1| ≤ E + 1 / 2 ^ 45 ∧
    |(chosenF fl large sweep a1 a2).2 - (ordered sweep b1 (other large b1 b2)).2| ≤ E + 1 / 2 ^ 45 := by
  have hpi := Real.pi_gt_three
  have hpi' := Real.pi_lt_d2
  have E0 : 0 ≤ E := (abs_nonneg _).trans h1
  have δ0 : 0 < δ := lt_of_lt_of_le (by positivity) hE
  have p1 : |fl Real.pi - Real.pi| ≤ 1 / 2 ^ 48 := fl_small hf (by rw [abs_of_pos Real.pi_pos]; linarith)
  rw [abs_le] at p1
  have p2 : |fl (2 * fl Real.pi) - 2 * fl Real.pi| ≤ 1 / 2 ^ 48 := fl_small hf (by rw [abs_le]; constructor <;> linarith)
  rw [abs_le] at p2 h1 h2 r1 r2
  have p3 : |fl (a2 - a1) - (a2 - a1)| ≤ 1 / 2 ^ 48 := fl_small hf (by rw [abs_le]; constructor <;> linarith)
  rw [abs_le] at p3
  -- the comparisons
  have c1 : a1 < a2 ↔ b1 < b2 := by
    rcases le_total 0 (b2 - b1) with h | h
    · rw [abs_of_nonneg h] at d0
      exact ⟨fun _ => by linarith, fun _ => by linarith⟩
    · rw [abs_of_nonpos h] at d0
      exact ⟨fun _ => by linarith, fun _ => by linarith⟩
  have c2 : |fl (a2 - a1)| > fl Real.pi ↔ |b2 - b1| > Real.pi := by
    rcases le_total 0 (b2 - b1) with h | h
    · rw [abs_of_nonneg h]
      rw [abs_of_nonneg h] at d0
      rw [abs_of_nonneg (by linarith)]
      rcases le_total 0 (b2 - b1 - Real.pi) with h' | h'
      · rw [abs_of_nonneg h'] at d3
        exact ⟨fun _ => by linarith, fun _ => by linarith⟩
      · rw [abs_of_nonpos h'] at d3
        exact ⟨fun _ => by linarith, fun _ => by linarith⟩
    · rw [abs_of_nonpos h]
      rw [abs_of_nonpos h] at d0
      rw [abs_of_nonpos (by linarith)]
      rcases le_total 0 (b2 - b1 + Real.pi) with h' | h'
      · rw [abs_of_nonneg h'] at d4
        exact ⟨fun _ => by linarith, fun _ => by linarith⟩
      · rw [abs_of_nonpos h'] at d4
        exact ⟨fun _ => by linarith, fun _ => by linarith⟩
  have c3 : |otherF fl large a1 a2 - other large b1 b2| ≤ E + 1 / 2 ^ 46 ∧ δ ≤ |other large b1 b2 - b1| ∧ |otherF fl large a1 a2| ≤ 12 := by
    have p4 : |fl (a2 - fl (2 * fl Real.pi)) - (a2 - fl (2 * fl Real.pi))| ≤ 1 / 2 ^ 48 :=
      fl_small hf (by rw [abs_le]; constructor <;> linarith)
    have p5 : |fl (a2 + fl (2 * fl Real.pi)) - (a2 + fl (2 * fl Real.pi))| ≤ 1 / 2 ^ 48 :=
      fl_small hf (by rw [abs_le]; constructor <;> linarith)
    rw [abs_le] at p4 p5
    unfold otherF other
    have hx : Xor large (|fl (a2 - a1)| > fl Real.pi) = Xor large (|b2 - b1| > Real.pi) := by rw [propext c2]
    by_cases hb : Xor large (|b2 - b1| > Real.pi)
    · rw [if_pos hb, if_pos (hx ▸ hb)]
      simp only [c1]
      split
      · refine ⟨?_, ?_, ?_⟩
        · rw [abs_le]; constructor <;> linarith
        · rwa [show b2 - 2 * Real.pi - b1 = b2 - b1 - 2 * Real.pi by ring]
        · rw [abs_le]; constructor <;> linarith
      · refine ⟨?_, ?_, ?_⟩
        · rw [abs_le]; constructor <;> linarith
        · rwa [show b2 + 2 * Real.pi - b1 = b2 - b1 + 2 * Real.pi by ring]
        · rw [abs_le]; constructor <;> linarith
    · rw [if_neg hb, if_neg (hx ▸ hb)]
      refine ⟨?_, d0, ?_⟩
      · rw [abs_le]; constructor <;> linarith
      · rw [abs_le]; constructor <;> linarith
  unfold chosenF
  obtain ⟨c3, c4, c5⟩ := c3
  generalize otherF fl large a1 a2 = a3 at *
  generalize other large b1 b2 = b3 at *
  rw [abs_le] at c3 c5
  have c6 : a3 > a1 ↔ b3 > b1 := by
    rcases le_total 0 (b3 - b1) with h | h
    · rw [abs_of_nonneg h] at c4
      exact ⟨fun _ => by linarith, fun _ => by linarith⟩
    · rw [abs_of_nonpos h] at c4
      exact ⟨fun _ => by linarith, fun _ => by linarith⟩
  have p6 : |fl (a3 + fl Real.pi) - (a3 + fl Real.pi)| ≤ 1 / 2 ^ 48 := fl_small hf (by rw [abs_le]; constructor <;> linarith)
  have p7 : |fl (a1 + fl Real.pi) - (a1 + fl Real.pi)| ≤ 1 / 2 ^ 48 := fl_small hf (by rw [abs_le]; constructor <;> linarith)
  rw [abs_le] at p6 p7
  unfold orderedF ordered
  have hx : Xor sweep (a3 > a1) = Xor sweep (b3 > b1) := by rw [propext c6]
  by_cases hb : Xor sweep (b3 > b1)
  · rw [if_pos hb, if_pos (hx ▸ hb)]
    constructor <;> (rw [abs_le]; constructor <;> linarith)
  · rw [if_neg hb, if_neg (hx ▸ hb)]
    constructor <;> (rw [abs_le]; constructor <;> linarith)

theorem far {x q : ℝ} (h : q ^ 2 ≤ 2 - 2 * Real.cos x) : q ≤ |x| := by
  refine abs_le_of_sq_le_sq' ?_ (abs_nonneg x) |>.2
  rw [sq_abs]
  have := Real.one_sub_sq_div_two_le_cos (x := x)
  linarith

/-- A computed quotient of a coordinate and the radius. -/
theorem quot_near (hf : FloatRounding fl) {K N : ℕ} {R' R x' x : ℝ} (hR : App K 60 R' R R) (R0 : 0 < R) (R1 : R ≤ 2 ^ 60)
    (hx : App (12200 * N) 60 x' x (7 * R)) (hK : K ≤ N) (hN : N ≤ 2 ^ 20) (n1 : 1 ≤ N) :
    |fl (x' / R') - x / R| ≤ 170842 * N / 2 ^ 52 := by
  have Ra : |R| = R := abs_of_pos R0
  have h1 := hx.mulr ((show App K 60 R' R |R| by rw [Ra]; exact hR).inv R0.ne' (g_half (by omega)) (m := 60) (by rw [Ra]; exact R1)) hf
    (by norm_num)
  rw [Ra, mul_one_div, mul_one_div] at h1
  have h2 := (h1.mono (l := 12203 * N) (by omega) le_rfl).err
  refine h2.trans ?_
  have h3 : ((12203 * N : ℕ) : ℝ) ≤ 2 ^ 52 := by exact_mod_cast (by omega : 12203 * N ≤ 2 ^ 52)
  have h4 := g_le h3
  have h5 : 7 * R * (1 / R) = 7 := by field_simp
  rw [h5]
  push_cast at h4
  calc g (12203 * N) * 7 ≤ 2 * (12203 * N) / 2 ^ 52 * 7 := by gcongr
    _ = _ := by ring

/-- The choice between the arcs, for angles that are close to those of the ends of a chord. -/
theorem choice_near (hf : FloatRounding fl) {h : ℕ} {R D dx dy α1 α2 a1 a2 e : ℝ} (large sweep : Prop) (R0 : 0 < R)
    (len : D ^ 2 = dx ^ 2 + dy ^ 2) (long : R / 2 ^ 10 ≤ D) (short : D ^ 2 * h ^ 2 ≤ 4 * R ^ 2 * (h ^ 2 - 1))
    (tight : h ≤ 2 ^ 10) (f3 : |a1 - α1| ≤ e) (f4 : |a1| ≤ Real.pi + 1 / 2 ^ 50) (f7 : |a2 - α2| ≤ e)
    (f8 : |a2| ≤ Real.pi + 1 / 2 ^ 50) (eN : 2 * e + 1 / 2 ^ 40 ≤ (1 : ℝ) / 2 ^ 10)
    (x1 : dx = R * Real.cos α2 - R * Real.cos α1) (y1 : dy = R * Real.sin α2 - R * Real.sin α1) :
    ∃ b1 b2, Props.ArcAngles R R dx dy large sweep b1 b2 ∧ |(chosenF fl large sweep a1 a2).1 - b1| ≤ e + 1 / 2 ^ 45 ∧
      |(chosenF fl large sweep a1 a2).2 - b2| ≤ e + 1 / 2 ^ 45 := by
  have hpi := Real.pi_gt_three
  have hpi' := Real.pi_lt_d2
  have hD : D ^ 2 = R ^ 2 * (2 - 2 * Real.cos (α2 - α1)) := by
    rw [len, x1, y1, Real.cos_sub]
    linear_combination R ^ 2 * Real.sin_sq_add_cos_sq α1 + R ^ 2 * Real.sin_sq_add_cos_sq α2
  have sep : (1 / 2 ^ 10 : ℝ) ^ 2 ≤ 2 - 2 * Real.cos (α2 - α1) := by
    have h1 : (R / 2 ^ 10) ^ 2 ≤ D ^ 2 := by gcongr
    rw [hD] at h1
    have h2 : R ^ 2 * (1 / 2 ^ 10 : ℝ) ^ 2 ≤ R ^ 2 * (2 - 2 * Real.cos (α2 - α1)) := by
      calc _ = (R / 2 ^ 10) ^ 2 := by ring
        _ ≤ _ := h1
    exact le_of_mul_le_mul_left h2 (by positivity)
  have sep' : (1 / 2 ^ 10 : ℝ) ^ 2 ≤ 2 + 2 * Real.cos (α2 - α1) := by
    have ht : (h : ℝ) ≤ 2 ^ 10 := by exact_mod_cast tight
    rw [hD] at short
    have h1 : R ^ 2 * ((2 - 2 * Real.cos (α2 - α1)) * h ^ 2) ≤ R ^ 2 * (4 * (h ^ 2 - 1)) := by linarith
    have h2 := le_of_mul_le_mul_left h1 (by positivity)
    have h3 : (4 : ℝ) ≤ (2 + 2 * Real.cos (α2 - α1)) * h ^ 2 := by linarith
    have h4 : (h : ℝ) ^ 2 ≤ 2 ^ 20 := by
      calc (h : ℝ) ^ 2 ≤ (2 ^ 10) ^ 2 := by gcongr
        _ = _ := by norm_num
    have h5 : 0 ≤ 2 + 2 * Real.cos (α2 - α1) := by linarith [Real.neg_one_le_cos (α2 - α1)]
    have h6 : (4 : ℝ) ≤ (2 + 2 * Real.cos (α2 - α1)) * 2 ^ 20 := h3.trans (mul_le_mul_of_nonneg_left h4 h5)
    linarith
  have d0 := far sep
  have d1 : 1 / 2 ^ 10 ≤ |α2 - α1 - 2 * Real.pi| := far (by rwa [Real.cos_sub_two_pi])
  have d2 : 1 / 2 ^ 10 ≤ |α2 - α1 + 2 * Real.pi| := far (by rwa [Real.cos_add_two_pi])
  have d3 : 1 / 2 ^ 10 ≤ |α2 - α1 - Real.pi| := far (by rw [Real.cos_sub_pi]; linarith)
  have d4 : 1 / 2 ^ 10 ≤ |α2 - α1 + Real.pi| := far (by rw [Real.cos_add_pi]; linarith)
  obtain ⟨o1, o2⟩ := chosen_near hf large sweep f3 f7 (by linarith) (by linarith) eN d0 d1 d2 d3 d4
  have turn : |α2 - α1| < 2 * Real.pi := by
    rw [abs_le] at f3 f4 f7 f8
    rw [abs_lt]
    constructor
    · by_contra hn
      rw [not_lt] at hn
      rw [abs_of_nonpos (by linarith)] at d2
      linarith
    · by_contra hn
      rw [not_lt] at hn
      rw [abs_of_nonneg (by linarith)] at d1
      linarith
  have ne : α1 ≠ α2 := by
    rintro rfl
    rw [sub_self, abs_zero] at d0
    norm_num at d0
  obtain ⟨g1, g2, g3, g4, g5⟩ := other_spec large ne turn
  have ne' : α1 ≠ other large α1 α2 := by
    intro h0
    rw [← h0] at g1 g2
    rw [Real.cos_sub, ← g1, ← g2] at sep
    have := Real.sin_sq_add_cos_sq α1
    have h5 : (1 / 2 ^ 10 : ℝ) ^ 2 ≤ 0 := by linarith
    norm_num at h5
  have spec := ordered_spec (R := R) large sweep ne' g3 g4 g5
  rw [g1, g2, ← x1, ← y1] at spec
  exact ⟨_, _, spec, o1, o2⟩

/-- An arc of a circle, evenly scaled, that is neither very short nor very close to half a circle: the computed one is close to one
between the same points. -/
theorem arc_near (hf : FloatRounding fl) (hl : FloatAngles lib) {K h : ℕ} {tr : Transform} {d' : Vec} {r' r s' s dx dy D : ℝ} (large sweep : Prop)
    (hr : App k 20 r' r r) (hs : App l 20 s' s s) (t0 : tr.m0 = s') (t1 : tr.m1 = 0) (t2 : tr.m2 = 0) (t3 : tr.m3 = s')
    (r0 : 1 / 2 ^ 20 ≤ r) (r1 : r ≤ 2 ^ 20) (s0 : 1 / 2 ^ 20 ≤ s) (s1 : s ≤ 2 ^ 20)
    (hx : App K 60 d'.x dx D) (hy : App K 60 d'.y dy D) (fx : fl d'.x = d'.x) (fy : fl d'.y = d'.y)
    (len : D ^ 2 = dx ^ 2 + dy ^ 2) (long : r * s / 2 ^ 10 ≤ D) (short : D ^ 2 * h ^ 2 ≤ 4 * (r * s) ^ 2 * (h ^ 2 - 1))
    (hK : 8 * k + 20 * l + 24 ≤ K) (hh : 1 ≤ h) (few : K * h ≤ 2 ^ 20) (tight : h ≤ 2 ^ 10) :
    ∃ R' b1' b2' b1 b2, arcSegF fl lib tr d' ⟨r', r', 0, large, sweep⟩ = some (.ok (.arc R' R' b1' b2' 0)) ∧
      App K 40 R' (r * s) (r * s) ∧ Props.ArcAngles (r * s) (r * s) dx dy large sweep b1 b2 ∧
      |b1' - b1| ≤ K * h / 2 ^ 32 ∧ |b2' - b2| ≤ K * h / 2 ^ 32 := by
  have Kh : K ≤ K * h := Nat.le_mul_of_pos_right K (by omega)
  obtain ⟨N, hN⟩ : ∃ N, N = K * h := ⟨_, rfl⟩
  obtain ⟨R, hR⟩ : ∃ R, R = r * s := ⟨_, rfl⟩
  rw [← hN] at few Kh
  obtain ⟨R', e1, e2⟩ := ellipse_near hf hl hr hs r0 r1 s0 s1 (by omega) (by omega)
  replace e2 := e2.mono hK (m := 40) le_rfl
  have rp : 0 < r := lt_of_lt_of_le (by positivity) r0
  have sp : 0 < s := lt_of_lt_of_le (by positivity) s0
  have R0 : 0 < R := hR ▸ mul_pos rp sp
  have R40 : R ≤ 2 ^ 40 := by
    calc R ≤ 2 ^ 20 * 2 ^ 20 := by rw [hR]; gcongr
      _ = 2 ^ 40 := by norm_num
  have R60 : R ≤ 2 ^ 60 := R40.trans (by norm_num)
  have Rlow : 1 / 2 ^ 40 ≤ R := by
    calc (1 : ℝ) / 2 ^ 40 = 1 / 2 ^ 20 * (1 / 2 ^ 20) := by norm_num
      _ ≤ _ := by rw [hR]; gcongr
  rw [← hR] at e2 long short
  have Dlow : 1 / 2 ^ 60 ≤ D := by
    refine le_trans ?_ long
    rw [le_div_iff₀ (by positivity)]
    refine le_trans ?_ Rlow
    norm_num
  have Dp : 0 < D := lt_of_lt_of_le (by positivity) Dlow
  have hc : Chord K h R' R d'.x dx d'.y dy D :=
    ⟨e2.mono le_rfl (by norm_num), hx, hy, R0, R60, le_trans (by norm_num) Rlow, Dlow, len, short, by omega, hh, hN ▸ few, tight⟩
  obtain ⟨p1', p2', p1, p2, c1, c2, c3, c4, c5, c6, c7⟩ := chord_near hf hc
  rw [← hN] at c2 c3
  have nz : ¬ (d'.x = 0 ∧ d'.y = 0) := by
    rintro ⟨h1, h2⟩
    have hg : g K ≤ 1 / 2 := g_half (by omega)
    have h3 := hx.err
    have h4 := hy.err
    rw [h1, zero_sub, abs_neg] at h3
    rw [h2, zero_sub, abs_neg] at h4
    have h5 : |dx| ≤ D / 2 := h3.trans (by nlinarith)
    have h6 : |dy| ≤ D / 2 := h4.trans (by nlinarith)
    have h7 : dx ^ 2 ≤ (D / 2) ^ 2 := by rw [← sq_abs]; gcongr
    have h8 : dy ^ 2 ≤ (D / 2) ^ 2 := by rw [← sq_abs]; gcongr
    nlinarith [pow_pos Dp 2]
  obtain ⟨e, he⟩ : ∃ e : ℝ, e = 170842 * N / 2 ^ 52 := ⟨_, rfl⟩
  have Nr : (N : ℝ) ≤ 2 ^ 20 := by exact_mod_cast few
  have N1 : (1 : ℝ) ≤ N := by exact_mod_cast (by omega : 1 ≤ N)
  have e18 : e ≤ 1 / 8 := by rw [he]; linarith
  have rl := e2.mono (l := K) (m := 60) le_rfl (by norm_num)
  have q1 := quot_near hf rl R0 R60 c2.x Kh few (by omega)
  have q2 := quot_near hf rl R0 R60 c2.y Kh few (by omega)
  have q3 := quot_near hf rl R0 R60 c3.x Kh few (by omega)
  have q4 := quot_near hf rl R0 R60 c3.y Kh few (by omega)
  rw [← he] at q1 q2 q3 q4
  obtain ⟨α1, f1, f2, f3, f4⟩ := angle_near hl (by rw [div_pow, div_pow, ← add_div, c4, div_self (by positivity)]) q1 q2 e18
  obtain ⟨α2, f5, f6, f7, f8⟩ := angle_near hl (by rw [div_pow, div_pow, ← add_div, c5, div_self (by positivity)]) q3 q4 e18
  obtain ⟨a1, ha1⟩ : ∃ a, a = lib.atan2 (fl (p1'.y / R')) (fl (p1'.x / R')) := ⟨_, rfl⟩
  obtain ⟨a2, ha2⟩ : ∃ a, a = lib.atan2 (fl (p2'.y / R')) (fl (p2'.x / R')) := ⟨_, rfl⟩
  rw [← ha1] at f3 f4
  rw [← ha2] at f7 f8
  have x1 : dx = R * Real.cos α2 - R * Real.cos α1 := by rw [f1, f5, ← c6]; field_simp
  have y1 : dy = R * Real.sin α2 - R * Real.sin α1 := by rw [f2, f6, ← c7]; field_simp
  have eN : 2 * (4 * e + 1 / 2 ^ 50) + 1 / 2 ^ 40 ≤ (1 : ℝ) / 2 ^ 10 := by rw [he]; linarith
  obtain ⟨b1, b2, spec, o1, o2⟩ := choice_near hf large sweep R0 len long short tight f3 f4 f7 f8 eN x1 y1
  have fin : 4 * e + 1 / 2 ^ 50 + 1 / 2 ^ 45 ≤ (K : ℝ) * h / 2 ^ 32 := by
    have : (K : ℝ) * h = N := by rw [hN]; push_cast; ring
    rw [this, he]
    linarith
  have seg : arcSegF fl lib tr d' ⟨r', r', 0, large, sweep⟩ = some (.ok (.arc R' R' (chosenF fl large sweep a1 a2).1 (chosenF fl large sweep a1 a2).2 0)) := by
    unfold arcSegF
    rw [if_neg nz]
    simp only [t0, t1, t2, t3]
    rw [e1, Option.bind_some]
    simp only [hl.sin, hl.cos, mul_one, mul_zero, fl_zero hf, sub_zero, zero_add, fx, fy]
    rw [c1]
    simp only [arcAnglesF_chosen, ← ha1, ← ha2]
  exact ⟨R', _, _, b1, b2, seg, hR ▸ e2, hR ▸ spec, o1.trans fin, o2.trans fin⟩

end StepperPaths.Rounded.Acc
