import Verif.Spec.CurvePath
import Verif.Proof.RoundedAlong
import Mathlib.Analysis.Calculus.MeanValue

/-! Curves with unit speed, and lines as such curves. -/

namespace StepperPaths.Rounded.CurvePath
open Coords Curves Context IntegerCurve Spec Props Draw

/-! ### Differences -/

theorem mean {f f' : ℝ → ℝ} (h : ∀ s, HasDerivAt f (f' s) s) {s s' C : ℝ} (hC : ∀ x ∈ Set.uIcc s s', |f' x| ≤ C) :
    |f s' - f s| ≤ C * |s' - s| := by
  have := Convex.norm_image_sub_le_of_norm_hasDerivWithin_le (f := f) (f' := f') (s := Set.uIcc s s') (C := C)
    (fun x _ => (h x).hasDerivWithinAt) (fun x hx => by rw [Real.norm_eq_abs]; exact hC x hx) (convex_uIcc s s')
    Set.left_mem_uIcc Set.right_mem_uIcc
  simpa [Real.norm_eq_abs] using this

theorem uIcc_abs {s s' x : ℝ} (h : x ∈ Set.uIcc s s') : |x - s| ≤ |s' - s| := Set.abs_sub_left_of_mem_uIcc h

theorem _root_.StepperPaths.Spec.Shape.Smooth.dir_le {c : Shape} {κ : ℝ} (h : c.Smooth κ) (i : Axis) (s : ℝ) :
    |coord (c.dir s) i| ≤ 1 := by
  have := h.unit s
  apply abs_le_of_sq_le_sq _ (by norm_num)
  cases i
  · show (c.dir s).x ^ 2 ≤ 1 ^ 2
    nlinarith [sq_nonneg (c.dir s).y]
  · show (c.dir s).y ^ 2 ≤ 1 ^ 2
    nlinarith [sq_nonneg (c.dir s).x]

theorem _root_.StepperPaths.Spec.Shape.Smooth.lip {c : Shape} {κ : ℝ} (h : c.Smooth κ) (i : Axis) (s s' : ℝ) :
    |coord (c.pt s') i - coord (c.pt s) i| ≤ |s' - s| := by
  have := mean (h.moves i) (s := s) (s' := s') (C := 1) (fun x _ => h.dir_le i x)
  rwa [one_mul] at this

theorem _root_.StepperPaths.Spec.Shape.Smooth.le {c : Shape} {κ : ℝ} (h : c.Smooth κ) (i : Axis) (s : ℝ) :
    |coord (c.pt s) i| ≤ |s| := by
  have := h.lip i 0 s
  rw [h.origin] at this
  cases i <;> simpa [coord] using this

/-- The tangent. -/
theorem _root_.StepperPaths.Spec.Shape.Smooth.tangent {c : Shape} {κ : ℝ} (h : c.Smooth κ) (hκ : 0 ≤ κ) (i : Axis) (s s' : ℝ) :
    |coord (c.pt s') i - coord (c.pt s) i - coord (c.dir s) i * (s' - s)| ≤ κ * |s' - s| * |s' - s| := by
  have hd : ∀ x, HasDerivAt (fun x => coord (c.pt x) i - coord (c.dir s) i * x) (coord (c.dir x) i - coord (c.dir s) i) x := by
    intro x
    have h1 := ((hasDerivAt_id x).const_mul (coord (c.dir s) i))
    rw [mul_one] at h1
    exact (h.moves i x).sub h1
  have := mean hd (s := s) (s' := s') (C := κ * |s' - s|) (fun x hx => (h.bends i x s).trans
    (mul_le_mul_of_nonneg_left (uIcc_abs hx) hκ))
  rw [show coord (c.pt s') i - coord (c.pt s) i - coord (c.dir s) i * (s' - s) =
    coord (c.pt s') i - coord (c.dir s) i * s' - (coord (c.pt s) i - coord (c.dir s) i * s) by ring]
  exact this

/-- Going on with one curve or with the next one: `h` after the joint. -/
theorem joined {c c' : Shape} {κ A : ℝ} (h : c.Smooth κ) (h' : c'.Smooth κ) (hκ : 0 ≤ κ) (i : Axis)
    (hA : |coord (c'.dir 0) i - coord (c.dir c.len) i| ≤ A) (s : ℝ) :
    |coord (c.pt c.len) i + coord (c'.pt s) i - coord (c.pt (c.len + s)) i| ≤ (A + 2 * κ * |s|) * |s| := by
  have hd : ∀ x, HasDerivAt (fun x => coord (c'.pt x) i - coord (c.pt (c.len + x)) i)
      (coord (c'.dir x) i - coord (c.dir (c.len + x)) i) x := by
    intro x
    have h1 := HasDerivAt.comp_const_add c.len x (h.moves i (c.len + x))
    exact (h'.moves i x).sub h1
  have := mean hd (s := 0) (s' := s) (C := A + 2 * κ * |s|) (fun x hx => by
    have h1 := h'.bends i x 0
    have h2 := h.bends i c.len (c.len + x)
    have h3 : |x| ≤ |s| := by simpa using uIcc_abs hx
    rw [sub_zero] at h1
    rw [sub_add_cancel_left, abs_neg] at h2
    have h4 := mul_le_mul_of_nonneg_left h3 hκ
    obtain ⟨a1, a2⟩ := abs_le.1 hA
    obtain ⟨b1, b2⟩ := abs_le.1 h1
    obtain ⟨c1, c2⟩ := abs_le.1 h2
    rw [abs_le]; constructor <;> linarith)
  rw [sub_zero, add_zero, h'.origin] at this
  rw [show coord (c.pt c.len) i + coord (c'.pt s) i - coord (c.pt (c.len + s)) i =
    coord (c'.pt s) i - coord (c.pt (c.len + s)) i - (coord (⟨0, 0⟩ : Vec) i - coord (c.pt c.len) i) by
      cases i <;> simp [coord] <;> ring]
  exact this

/-! ### Lines -/

theorem sq_length (d : Vec) : d.length * d.length = d.x * d.x + d.y * d.y :=
  Real.mul_self_sqrt (by nlinarith [mul_self_nonneg d.x, mul_self_nonneg d.y])

theorem line_coord (d : Vec) (s : ℝ) (i : Axis) :
    coord ((lineShape d).pt s) i = coord d i / d.length * s ∧ coord ((lineShape d).dir s) i = coord d i / d.length := by
  cases i <;> exact ⟨rfl, rfl⟩

theorem line_smooth {d : Vec} (h : 0 < d.length) {κ : ℝ} (hκ : 0 ≤ κ) : (lineShape d).Smooth κ := by
  refine ⟨by simp [lineShape], fun i s => ?_, fun s => ?_, fun i s s' => ?_⟩
  · have : (fun s => coord ((lineShape d).pt s) i) = fun s => coord d i / d.length * s := by
      funext s
      exact (line_coord d s i).1
    rw [this, (line_coord d s i).2]
    simpa using (hasDerivAt_id s).const_mul (coord d i / d.length)
  · show (d.x / d.length) ^ 2 + (d.y / d.length) ^ 2 = 1
    rw [div_pow, div_pow, ← add_div, div_eq_one_iff_eq (by positivity)]
    have := sq_length d
    nlinarith
  · rw [(line_coord d s i).2, (line_coord d s' i).2, sub_self, abs_zero]
    positivity

theorem line_end {d : Vec} (h : 0 < d.length) (i : Axis) : coord ((lineShape d).pt (lineShape d).len) i = coord d i := by
  rw [(line_coord d _ i).1]
  show coord d i / d.length * d.length = _
  field_simp

theorem line_is_near {fl : ℝ → ℝ} (R : FloatRounding fl) {p s : Vec} {w D ε : ℝ} (h : 1 / 2 ^ 40 ≤ (p - s).length)
    (hw : w ≤ (p - s).length) (hD : 30 * (p - s).length / 2 ^ 52 ≤ D) (hε : 13 / 2 ^ 52 ≤ ε) :
    Near (line fl (vsub fl p s)) (lineShape (p - s)) D ε w := by
  obtain ⟨h1, h2⟩ := line_near R h
  have h0 : 0 < (p - s).length := lt_of_lt_of_le (by norm_num) h
  have hne : vlength fl (vsub fl p s) ≠ 0 := by
    have h3 := (abs_le.1 h1).1
    have : 0 < vlength fl (vsub fl p s) := by linarith
    exact this.ne'
  have hval : ∀ x, (line fl (vsub fl p s)).value x = (vmul fl (vunit fl (vsub fl p s)) x, vunit fl (vsub fl p s)) := by
    intro x
    simp only [line, if_neg hne]
  refine ⟨?_, ?_, fun x hx hx' i => ?_, fun x _ _ i => ?_⟩
  · show |vlength fl (vsub fl p s) - (p - s).length| ≤ D
    linarith
  · rw [hval]
    simp [vmul, R.zero]
  · rw [hval, (line_coord _ _ i).1]
    have hx' : x ≤ (p - s).length + w := hx'
    have : coord (vmul fl (vunit fl (vsub fl p s)) x) i = fl (coord (vunit fl (vsub fl p s)) i * x) := by cases i <;> rfl
    show |coord (vmul fl (vunit fl (vsub fl p s)) x) i - _| ≤ _
    rw [this]
    refine (on_line R h ?_ (h2 i) ?_).trans (hD.trans (le_add_of_nonneg_right (le_max_left _ _)))
    · rw [abs_div, abs_of_pos h0]
      exact div_le_one_of_le₀ (le_length _ _) h0.le
    · rw [abs_le]; constructor <;> linarith
  · rw [hval, (line_coord _ _ i).2]
    exact (h2 i).trans hε

end StepperPaths.Rounded.CurvePath
