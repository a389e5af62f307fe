import Verif.Proof.Starts
import Verif.Proof.Double
import Verif.Model.RoundedBezier
import Verif.Spec.RoundedArc
import Verif.Model.RoundedArc

/-!
The speeds with which strokes begin, as they are computed.
-/

namespace StepperPaths.Proof
open Context Spec Config Rounded Coords Curves
open Special (Num)
open Draw (Pen Seg coord)

/-- A multiple of `2^-452`. -/
def Grid (x : ℝ) : Prop := ∃ k : ℤ, x = k * 2⁻¹ ^ 452

theorem Grid.sub {x y : ℝ} (hx : Grid x) (hy : Grid y) : Grid (x - y) := by
  obtain ⟨k, rfl⟩ := hx
  obtain ⟨m, rfl⟩ := hy
  exact ⟨k - m, by push_cast; ring⟩

theorem Grid.far {x : ℝ} (hx : Grid x) (h : x ≠ 0) : (2⁻¹ : ℝ) ^ 452 ≤ |x| := by
  obtain ⟨k, rfl⟩ := hx
  have hk : k ≠ 0 := by rintro rfl; simp at h
  have : (1 : ℝ) ≤ |(k : ℝ)| := by exact_mod_cast Int.one_le_abs hk
  rw [abs_mul, abs_of_pos (a := (2⁻¹ : ℝ) ^ 452) (by positivity)]
  nlinarith [show (0 : ℝ) < 2⁻¹ ^ 452 by positivity]

theorem grid_double {x : ℝ} (h : (2⁻¹ : ℝ) ^ 400 ≤ |x|) : Grid (double x) := by
  unfold double
  simp only
  set j := max (Int.log 2 |x|) (-1022) - 52 with hj
  have h0 : 0 < |x| := lt_of_lt_of_le (by positivity) h
  have hl : -400 ≤ Int.log 2 |x| := by
    rw [← Int.zpow_le_iff_le_log (by norm_num) h0]
    have : ((2 : ℕ) : ℝ) ^ (-400 : ℤ) = 2⁻¹ ^ 400 := by
      rw [zpow_neg, inv_pow]
      norm_cast
    rw [this]
    exact h
  have hj' : -452 ≤ j := by omega
  refine ⟨nearestEven (x / 2 ^ j) * 2 ^ (j + 452).toNat, ?_⟩
  push_cast
  rw [mul_assoc]
  congr 1
  have : ((2 : ℝ)⁻¹) ^ 452 = 2 ^ (-452 : ℤ) := by
    rw [zpow_neg, inv_pow]
    norm_cast
  rw [this, ← zpow_natCast, ← zpow_add₀ (by norm_num)]
  congr 1
  omega

variable {fl : ℝ → ℝ}

theorem fl_zero (F : FloatRounding fl) : fl 0 = 0 := by simpa using F.int 0 (by norm_num)

/-- Half of the smallest positive number. -/
noncomputable def eta : ℝ := 2⁻¹ ^ 1075

theorem eta_pos : 0 < eta := by unfold eta; positivity

theorem eta_le (k : ℕ) (h : k ≤ 1075) : eta ≤ 2⁻¹ ^ k := pow_le_pow_of_le_one (by norm_num) (by norm_num) h

theorem eta_eq (k : ℕ) (h : k ≤ 1075) : eta = 2⁻¹ ^ (1075 - k) * 2⁻¹ ^ k := by
  unfold eta
  rw [← pow_add]
  congr 1
  omega

theorem fl_near (F : FloatRounding fl) (x : ℝ) : |fl x - x| ≤ 2⁻¹ ^ 53 * |x| + eta := F.near x

/-- A rounded value that is not negative. -/
theorem fl_low (F : FloatRounding fl) {x : ℝ} (h : 0 ≤ x) : x * (1 - 2⁻¹ ^ 53) - eta ≤ fl x := by
  have := fl_near F x
  rw [abs_of_nonneg h] at this
  have := (abs_le.1 this).1
  linarith

theorem fl_high (F : FloatRounding fl) (x : ℝ) : |fl x| ≤ |x| * (1 + 2⁻¹ ^ 53) + eta := by
  have h1 := fl_near F x
  have h2 : |fl x| ≤ |fl x - x| + |x| := by
    have := abs_add_le (fl x - x) x
    simpa using this
  linarith

theorem fl_away (F : FloatRounding fl) (x : ℝ) : |x| * (1 - 2⁻¹ ^ 53) - eta ≤ |fl x| := by
  have h1 := fl_near F x
  have h2 : |x| ≤ |fl x - x| + |fl x| := by
    have := abs_sub_abs_le_abs_sub x (fl x)
    rw [abs_sub_comm] at this
    linarith
  linarith

/-- The computed length of a vector that is not extremely short is hardly less than its coordinates. -/
theorem vlength_low (F : FloatRounding fl) {d : Vec} (h : ∃ i, (2⁻¹ : ℝ) ^ 453 ≤ |coord d i|) (i : Axis) :
    0 < vlength fl d ∧ |coord d i| ≤ vlength fl d * (1 + 2⁻¹ ^ 48) := by
  set N := d.x * d.x + d.y * d.y with hN
  have hN0 : (2⁻¹ : ℝ) ^ 906 ≤ N := by
    obtain ⟨j, hj⟩ := h
    have e : ((2⁻¹ : ℝ) ^ 453) * (2⁻¹ ^ 453) = 2⁻¹ ^ 906 := by rw [← pow_add]
    have p : (0 : ℝ) < 2⁻¹ ^ 453 := by positivity
    have : ((2⁻¹ : ℝ) ^ 453) * (2⁻¹ ^ 453) ≤ |coord d j| * |coord d j| := mul_le_mul hj hj p.le (abs_nonneg _)
    rw [e, abs_mul_abs_self] at this
    cases j
    · have : (2⁻¹ : ℝ) ^ 906 ≤ d.x * d.x := this
      nlinarith [mul_self_nonneg d.y]
    · have : (2⁻¹ : ℝ) ^ 906 ≤ d.y * d.y := this
      nlinarith [mul_self_nonneg d.x]
  have small : eta ≤ 2⁻¹ ^ 160 * N := by
    have e : eta = 2⁻¹ ^ 169 * 2⁻¹ ^ 906 := eta_eq 906 (by norm_num)
    have p : (0 : ℝ) < 2⁻¹ ^ 906 := by positivity
    rw [e]
    refine mul_le_mul ?_ hN0 p.le (by positivity)
    norm_num
  have hNp : 0 < N := lt_of_lt_of_le (by positivity) hN0
  have sN : 0 < √N := Real.sqrt_pos.2 hNp
  have tiny : eta ≤ 2⁻¹ ^ 160 * √N := by
    have e : eta = 2⁻¹ ^ 622 * 2⁻¹ ^ 453 := eta_eq 453 (by norm_num)
    have e2 : √((2⁻¹ : ℝ) ^ 906) = 2⁻¹ ^ 453 := by
      rw [show (2⁻¹ : ℝ) ^ 906 = (2⁻¹ ^ 453) ^ 2 by rw [← pow_mul], Real.sqrt_sq (by positivity)]
    have p : (0 : ℝ) < 2⁻¹ ^ 453 := by positivity
    rw [e]
    refine mul_le_mul (pow_le_pow_of_le_one (by norm_num) (by norm_num) (by norm_num)) ?_ p.le (by positivity)
    rw [← e2]
    exact Real.sqrt_le_sqrt hN0
  have a1 := fl_low F (mul_self_nonneg d.x)
  have a2 := fl_low F (mul_self_nonneg d.y)
  have η0 := eta_pos
  set S0 := fl (d.x * d.x) + fl (d.y * d.y) with hS0
  have b1 : N * (1 - 2⁻¹ ^ 52) ≤ S0 := by
    have : N * (1 - 2⁻¹ ^ 53) - 2 * eta ≤ S0 := by rw [hN, hS0]; linarith
    norm_num at *
    nlinarith
  have b2 : 0 ≤ S0 := le_trans (by norm_num; positivity) b1
  have a3 := fl_low F b2
  have b3 : N * (1 - 2⁻¹ ^ 51) ≤ fl S0 := by
    norm_num at *
    nlinarith
  have b4 : √N * (1 - 2⁻¹ ^ 51) ≤ √(fl S0) := by
    apply Real.le_sqrt_of_sq_le
    rw [mul_pow, Real.sq_sqrt hNp.le]
    refine le_trans ?_ b3
    norm_num
    nlinarith
  have a4 := fl_low F (Real.sqrt_nonneg (fl S0))
  have b5 : √N * (1 - 2⁻¹ ^ 49) ≤ vlength fl d := by
    unfold vlength
    rw [← hS0]
    norm_num at *
    nlinarith
  have hc : |coord d i| ≤ √N := by
    rw [← Real.sqrt_sq_eq_abs]
    apply Real.sqrt_le_sqrt
    cases i
    · show d.x ^ 2 ≤ N
      nlinarith [mul_self_nonneg d.y]
    · show d.y ^ 2 ≤ N
      nlinarith [mul_self_nonneg d.x]
  constructor
  · refine lt_of_lt_of_le ?_ b5
    norm_num
    positivity
  · refine hc.trans ?_
    norm_num at *
    nlinarith

/-- The directions of lines between points of the grid. -/
theorem line_dir (F : FloatRounding fl) {p q : Vec} (hp : ∀ i, Grid (coord p i)) (hq : ∀ i, Grid (coord q i)) (l : ℝ) (i : Axis) :
    |coord ((line fl (vsub fl p q)).value l).2 i| ≤ 1 + 2⁻¹ ^ 40 := by
  set d := vsub fl p q with hd
  have hv : ((line fl d).value l).2 = if vlength fl d = 0 then ⟨1, 0⟩ else vunit fl d := rfl
  rw [hv]
  split
  · cases i
    · simp [coord]
    · simp only [coord, abs_zero]
      positivity
  · rename_i h0
    have hco : ∀ i, coord d i = fl (coord p i - coord q i) := fun i => by cases i <;> rfl
    by_cases hz : ∀ i, coord p i - coord q i = 0
    · exfalso
      apply h0
      have e1 : d.x = 0 := by have := hco .x; rw [hz, fl_zero F] at this; exact this
      have e2 : d.y = 0 := by have := hco .y; rw [hz, fl_zero F] at this; exact this
      unfold vlength
      rw [e1, e2]
      simp [fl_zero F]
    · push Not at hz
      obtain ⟨j, hj⟩ := hz
      have far := ((hp j).sub (hq j)).far hj
      have hd' : (2⁻¹ : ℝ) ^ 453 ≤ |coord d j| := by
        have h1 := fl_away F (coord p j - coord q j)
        rw [← hco j] at h1
        have h3 := eta_le 500 (by norm_num)
        have e1 : (2⁻¹ : ℝ) ^ 453 = 2⁻¹ * 2⁻¹ ^ 452 := by rw [← pow_succ']
        have e2 : (2⁻¹ : ℝ) ^ 500 = 2⁻¹ ^ 48 * 2⁻¹ ^ 452 := by rw [← pow_add]
        rw [e1]
        rw [e2] at h3
        have z0 : (0 : ℝ) < 2⁻¹ ^ 452 := by positivity
        generalize (2⁻¹ : ℝ) ^ 452 = z at *
        norm_num at h1 h3 ⊢
        linarith
      obtain ⟨l0, l1⟩ := vlength_low F ⟨j, hd'⟩ i
      have e : coord (vunit fl d) i = fl (coord d i / vlength fl d) := by cases i <;> rfl
      rw [e]
      have h1 := fl_high F (coord d i / vlength fl d)
      have h2 : |coord d i / vlength fl d| ≤ 1 + 2⁻¹ ^ 48 := by
        rw [abs_div, abs_of_pos l0, div_le_iff₀ l0]
        linarith
      have h3 := eta_le 48 (by norm_num)
      have h4 : |coord d i / vlength fl d| * (1 + 2⁻¹ ^ 53) ≤ (1 + 2⁻¹ ^ 48) * (1 + 2⁻¹ ^ 53) := mul_le_mul_of_nonneg_right h2 (by positivity)
      norm_num at h1 h3 h4 ⊢
      linarith

/-- The machine thinks that it is on the grid. -/
theorem grid_here {e : Rounded.Env} (F : FloatRounding double) (hs : ∀ i, |e.stepScale i| ≤ 2 ^ 390) (n : ℤ) (i : Axis) :
    Grid (coordFromSteps double e n i) := by
  unfold coordFromSteps
  by_cases hz : double n / e.stepScale i = 0
  · rw [hz, fl_zero F]
    exact ⟨0, by simp⟩
  · apply grid_double
    have hn : n ≠ 0 := by
      rintro rfl
      apply hz
      simp [fl_zero F]
    have h0 : e.stepScale i ≠ 0 := by
      intro h
      apply hz
      rw [h, div_zero]
    have h1 : (1 : ℝ) ≤ |(n : ℝ)| := by exact_mod_cast Int.one_le_abs hn
    have h2 := fl_away F n
    have h4 := eta_le 48 (by norm_num)
    have h5 : (2⁻¹ : ℝ) ≤ |double (n : ℝ)| := by
      norm_num at h2 h4 ⊢
      linarith
    rw [abs_div, le_div_iff₀ (abs_pos.2 h0)]
    refine le_trans ?_ h5
    have e1 : (2⁻¹ : ℝ) ^ 400 = 2⁻¹ ^ 10 * 2⁻¹ ^ 390 := by rw [← pow_add]
    have e2 : (2⁻¹ : ℝ) ^ 390 * 2 ^ 390 = 1 := by rw [← mul_pow]; norm_num
    have e3 : (2⁻¹ : ℝ) ^ 390 * |e.stepScale i| ≤ 1 := by
      rw [← e2]
      exact mul_le_mul_of_nonneg_left (hs i) (by positivity)
    rw [e1, mul_assoc]
    refine le_trans (mul_le_mul_of_nonneg_left e3 (by positivity)) ?_
    norm_num

theorem round_mono {x y : ℝ} (h : x ≤ y) : Draw.round x ≤ Draw.round y := by
  unfold Draw.round
  split_ifs with h1 h2 h2
  · exact Int.floor_le_floor (by linarith)
  · linarith
  · have a : 0 ≤ ⌊-x + 1 / 2⌋ := Int.floor_nonneg.2 (by linarith)
    have b : 0 ≤ ⌊y + 1 / 2⌋ := Int.floor_nonneg.2 (by linarith)
    omega
  · have : ⌊-y + 1 / 2⌋ ≤ ⌊-x + 1 / 2⌋ := Int.floor_le_floor (by linarith)
    omega

theorem round_neg (x : ℝ) : Draw.round (-x) = -Draw.round x := by
  unfold Draw.round
  rcases lt_trichotomy x 0 with h | h | h
  · rw [if_pos (by linarith), if_neg (by linarith), neg_neg]
  · subst h
    norm_num
  · rw [if_neg (by linarith), if_pos (by linarith), neg_neg]

/-- The speed with which a stroke with this direction begins, in half steps per tick. -/
theorem start_speed (F : FloatRounding fl) {e : Rounded.Env} {i : Axis} (hs : |e.stepScale i| ≤ 2 ^ 390) {B d v : ℝ} (hv : |v| ≤ 2 ^ 390)
    (hd : |d| ≤ B) (hB : B ≤ 2) {s : ℤ} (h : Special.toStepV fl e (.mul fl (.fin d) (.fin v)) i = some s) :
    -2147483648 < s ∧ -Draw.round (|v| * |e.stepScale i| / 2 * (B * (1 + 2⁻¹ ^ 40)) + 2⁻¹ ^ 100) ≤ s := by
  unfold Special.toStepV at h
  simp only [Num.mul] at h
  rw [cassert_bind] at h
  obtain ⟨⟨h0, h0'⟩, h⟩ := h
  obtain rfl := Option.some.inj h
  refine ⟨h0', ?_⟩
  rw [← round_neg]
  apply round_mono
  have B0 : 0 ≤ B := (abs_nonneg d).trans hd
  have key : |fl (fl (d * v) * Rounded.vScale fl e i)| ≤ |v| * |e.stepScale i| / 2 * (B * (1 + 2⁻¹ ^ 40)) + 2⁻¹ ^ 100 := by
    have k1 := fl_high F (fl (d * v) * Rounded.vScale fl e i)
    have k2 := fl_high F (d * v)
    have k3 := fl_high F (e.stepScale i / 2)
    unfold Rounded.vScale at k1 ⊢
    rw [abs_mul] at k1 k2
    rw [abs_div, abs_of_pos (a := (2 : ℝ)) (by norm_num)] at k3
    have p1 := abs_nonneg (fl (d * v))
    have p2 := abs_nonneg (fl (e.stepScale i / 2))
    set A := |fl (d * v)|
    set C := |fl (e.stepScale i / 2)|
    have η0 := eta_pos
    have η1 : eta ≤ 2⁻¹ ^ 240 := eta_le 240 (by norm_num)
    have η2 : eta * 2 ^ 390 ≤ 2⁻¹ ^ 240 := by
      have e1 : eta = 2⁻¹ ^ 685 * 2⁻¹ ^ 390 := eta_eq 390 (by norm_num)
      have e2 : (2⁻¹ : ℝ) ^ 390 * 2 ^ 390 = 1 := by rw [← mul_pow]; norm_num
      rw [e1, mul_assoc, e2, mul_one]
      exact pow_le_pow_of_le_one (by norm_num) (by norm_num) (by norm_num)
    set s0 := |e.stepScale i|
    set v0 := |v|
    have v00 : 0 ≤ v0 := abs_nonneg _
    have s00 : 0 ≤ s0 := abs_nonneg _
    have r1 : eta * v0 ≤ 2⁻¹ ^ 240 := (mul_le_mul_of_nonneg_left hv η0.le).trans η2
    have r2 : eta * s0 ≤ 2⁻¹ ^ 240 := (mul_le_mul_of_nonneg_left hs η0.le).trans η2
    have r3 : eta * eta ≤ 2⁻¹ ^ 240 := by
      have : eta ≤ 1 := η1.trans (by norm_num)
      exact (mul_le_of_le_one_right η0.le this).trans η1
    clear hs hv η2
    have r4 : eta * v0 * B ≤ 2⁻¹ ^ 239 := by
      have h1 : eta * v0 * B ≤ 2⁻¹ ^ 240 * 2 := mul_le_mul r1 hB B0 (by positivity)
      refine h1.trans ?_
      norm_num
    have q1 : A ≤ B * v0 * (1 + 2⁻¹ ^ 53) + eta := by
      refine k2.trans ?_
      have : |d| * v0 * (1 + 2⁻¹ ^ 53) ≤ B * v0 * (1 + 2⁻¹ ^ 53) :=
        mul_le_mul_of_nonneg_right (mul_le_mul_of_nonneg_right hd v00) (by positivity)
      linarith
    have q2 : A * C ≤ (B * v0 * (1 + 2⁻¹ ^ 53) + eta) * (s0 / 2 * (1 + 2⁻¹ ^ 53) + eta) :=
      mul_le_mul q1 k3 p2 (by positivity)
    have q3 : (B * v0 * (1 + 2⁻¹ ^ 53) + eta) * (s0 / 2 * (1 + 2⁻¹ ^ 53) + eta) ≤
        v0 * s0 / 2 * B * ((1 + 2⁻¹ ^ 53) * (1 + 2⁻¹ ^ 53)) + 2⁻¹ ^ 230 := by
      have : (B * v0 * (1 + 2⁻¹ ^ 53) + eta) * (s0 / 2 * (1 + 2⁻¹ ^ 53) + eta) =
        v0 * s0 / 2 * B * ((1 + 2⁻¹ ^ 53) * (1 + 2⁻¹ ^ 53)) +
        (eta * v0 * B) * (1 + 2⁻¹ ^ 53) + (eta * s0) * ((1 + 2⁻¹ ^ 53) / 2) + eta * eta := by ring
      rw [this]
      clear this
      generalize eta * v0 * B = a1 at *
      generalize eta * s0 = a2 at *
      generalize eta * eta = a3 at *
      clear q2 q1 k1 k2 k3
      generalize v0 * s0 / 2 * B * ((1 + 2⁻¹ ^ 53) * (1 + 2⁻¹ ^ 53)) = z
      norm_num at r4 r2 r3 ⊢
      linarith
    have q4 : 0 ≤ v0 * s0 / 2 * B := by positivity
    have q5 := q2.trans q3
    rw [show v0 * s0 / 2 * (B * (1 + 2⁻¹ ^ 40)) = v0 * s0 / 2 * B * (1 + 2⁻¹ ^ 40) by ring]
    generalize v0 * s0 / 2 * B = V at *
    generalize A * C = W at *
    refine k1.trans ?_
    clear k1 k2 k3 q1 q2 q3 r1 r2 r3
    norm_num at q5 η1 ⊢
    linarith
  exact (abs_le.1 key).1

/-! ### Directions of whatever is drawn -/

theorem double_grain (x : ℝ) : ∃ k : ℤ, double x = k * (2 * eta) := by
  unfold double
  simp only
  set j := max (Int.log 2 |x|) (-1022) - 52 with hj
  have hj' : -1074 ≤ j := by omega
  refine ⟨nearestEven (x / 2 ^ j) * 2 ^ (j + 1074).toNat, ?_⟩
  push_cast
  rw [mul_assoc]
  congr 1
  have : 2 * eta = 2 ^ (-1074 : ℤ) := by
    unfold eta
    rw [show (2⁻¹ : ℝ) ^ 1075 = 2⁻¹ * 2⁻¹ ^ 1074 by rw [← pow_succ'], ← mul_assoc, mul_inv_cancel₀ (by norm_num), one_mul, zpow_neg, inv_pow]
    norm_cast
  rw [this, ← zpow_natCast, ← zpow_add₀ (by norm_num)]
  congr 1
  omega

/-- The computed direction of a vector is not much longer than 1, however short the vector is. -/
theorem vunit_any (F : FloatRounding double) (pos : ∀ x, 0 ≤ x → 0 ≤ double x) (d : Vec) (i : Axis) : |coord (vunit double d) i| ≤ 5 / 4 := by
  have e : coord (vunit double d) i = double (coord d i / vlength double d) := by cases i <;> rfl
  rw [e]
  by_cases h0 : vlength double d = 0
  · rw [h0, div_zero, fl_zero F, abs_zero]
    norm_num
  have η0 := eta_pos
  obtain ⟨a, ha⟩ : ∃ a, a = double (d.x * d.x) := ⟨_, rfl⟩
  obtain ⟨b, hb⟩ : ∃ b, b = double (d.y * d.y) := ⟨_, rfl⟩
  have a0 : 0 ≤ a := by rw [ha]; exact pos _ (mul_self_nonneg _)
  have b0 : 0 ≤ b := by rw [hb]; exact pos _ (mul_self_nonneg _)
  have a1 := fl_low F (mul_self_nonneg d.x)
  have b1 := fl_low F (mul_self_nonneg d.y)
  rw [← ha] at a1
  rw [← hb] at b1
  obtain ⟨ka, hka⟩ := double_grain (d.x * d.x)
  obtain ⟨kb, hkb⟩ := double_grain (d.y * d.y)
  rw [← ha] at hka
  rw [← hb] at hkb
  have hl : vlength double d = double √(double (a + b)) := by rw [ha, hb]; rfl
  have hS0 : a + b = ((ka + kb : ℤ) : ℝ) * (2 * eta) := by push_cast; rw [hka, hkb]; ring
  have hk : 1 ≤ ka + kb := by
    by_contra hk
    have : ((ka + kb : ℤ) : ℝ) ≤ 0 := by exact_mod_cast (by omega : ka + kb ≤ 0)
    have h1 : a + b = 0 := le_antisymm (by rw [hS0]; nlinarith) (by linarith)
    apply h0
    rw [hl, h1, fl_zero F, Real.sqrt_zero, fl_zero F]
  have hk' : (1 : ℝ) ≤ ((ka + kb : ℤ) : ℝ) := by exact_mod_cast hk
  have hS : (a + b) * (1 - 2⁻¹ ^ 50) ≤ double (a + b) := by
    by_cases hbig : ka + kb ≤ 2 ^ 53
    · have : double (a + b) = a + b := by
        rw [hS0, show 2 * eta = (2 : ℝ) ^ (-1074 : ℤ) by
          unfold eta
          rw [show (2⁻¹ : ℝ) ^ 1075 = 2⁻¹ * 2⁻¹ ^ 1074 by rw [← pow_succ'], ← mul_assoc, mul_inv_cancel₀ (by norm_num), one_mul, zpow_neg, inv_pow]
          norm_cast]
        exact double_exact (by rw [abs_of_pos (by omega)]; exact hbig) (by norm_num)
      rw [this]
      have : 0 ≤ a + b := by linarith
      norm_num
      linarith
    · have h1 := fl_low F (show 0 ≤ a + b by linarith)
      have h2 : (2 : ℝ) ^ 53 ≤ ((ka + kb : ℤ) : ℝ) := by exact_mod_cast (by omega : (2 : ℤ) ^ 53 ≤ ka + kb)
      have h3 : 2 ^ 53 * (2 * eta) ≤ a + b := by rw [hS0]; exact mul_le_mul_of_nonneg_right h2 (by linarith)
      norm_num at h1 h3 ⊢
      linarith
  have hη : 2 * eta ≤ a + b := by rw [hS0]; nlinarith
  set S := double (a + b) with hSdef
  have hx : coord d i * coord d i ≤ 152 / 100 * S := by
    have : coord d i * coord d i * (1 - 2⁻¹ ^ 53) ≤ a + b + eta := by
      cases i
      · show d.x * d.x * (1 - 2⁻¹ ^ 53) ≤ _
        linarith
      · show d.y * d.y * (1 - 2⁻¹ ^ 53) ≤ _
        linarith
    norm_num at this hS ⊢
    linarith
  have hxs : |coord d i| ≤ 124 / 100 * √S := by
    rw [← Real.sqrt_sq_eq_abs, ← Real.sqrt_sq (show (0 : ℝ) ≤ 124 / 100 by norm_num), ← Real.sqrt_mul (by positivity)]
    apply Real.sqrt_le_sqrt
    have : 0 ≤ S := pos _ (by linarith)
    norm_num
    nlinarith
  have hsS : eta ≤ 2⁻¹ ^ 160 * √S := by
    have h1 : eta ≤ S := by
      norm_num at hS
      linarith
    have h2 : eta = 2⁻¹ ^ 537 * 2⁻¹ ^ 538 := eta_eq 538 (by norm_num)
    have h3 : (2⁻¹ : ℝ) ^ 538 ≤ √S := by
      apply Real.le_sqrt_of_sq_le
      refine le_trans ?_ h1
      rw [← pow_mul]
      exact pow_le_pow_of_le_one (by norm_num) (by norm_num) (by norm_num)
    rw [h2]
    exact mul_le_mul (pow_le_pow_of_le_one (by norm_num) (by norm_num) (by norm_num)) h3 (by positivity) (by positivity)
  have h4 := fl_low F (Real.sqrt_nonneg S)
  rw [← hl] at h4
  have hp : 0 < √S := by
    by_contra hp
    have : √S = 0 := le_antisymm (not_lt.1 hp) (Real.sqrt_nonneg _)
    rw [this] at hsS
    linarith
  have l1 : √S * (1 - 2⁻¹ ^ 50) ≤ vlength double d := by
    norm_num at h4 hsS ⊢
    linarith
  have l0 : 0 < vlength double d := lt_of_lt_of_le (mul_pos hp (by norm_num)) l1
  have h5 := fl_high F (coord d i / vlength double d)
  have h6 : |coord d i / vlength double d| ≤ 1245 / 1000 := by
    rw [abs_div, abs_of_pos l0, div_le_iff₀ l0]
    norm_num at l1
    linarith
  have h7 : eta ≤ 2⁻¹ ^ 48 := eta_le 48 (by norm_num)
  norm_num at h5 h7 ⊢
  linarith

theorem line_any (F : FloatRounding double) (pos : ∀ x, 0 ≤ x → 0 ≤ double x) (d : Vec) (l : ℝ) (i : Axis) :
    |coord ((line double d).value l).2 i| ≤ 5 / 4 := by
  have hv : ((line double d).value l).2 = if vlength double d = 0 then ⟨1, 0⟩ else vunit double d := rfl
  rw [hv]
  split
  · cases i <;> norm_num [coord]
  · exact vunit_any F pos d i

theorem bezier_any (F : FloatRounding double) (pos : ∀ x, 0 ≤ x → 0 ≤ double x) (b : Bezier) (len : ℝ) (param : ℝ → ℝ) (l : ℝ) (i : Axis) :
    |coord ((bezierInfoF double b len param).value l).2 i| ≤ 5 / 4 := vunit_any F pos _ i

theorem circle_any {sn cs : ℝ → ℝ} (T : FloatTrig sn cs) (c : Circle) (l : ℝ) (i : Axis) :
    |coord ((circleInfo fl sn cs c).value l).2 i| ≤ 1 + 2⁻¹ ^ 40 := by
  have hs : ∀ x, |sn x| ≤ 1 + 2⁻¹ ^ 40 := fun x => by
    have h1 := abs_le.1 (T.sin x)
    have h2 := Real.neg_one_le_sin x
    have h3 := Real.sin_le_one x
    rw [abs_le]
    norm_num at h1 ⊢
    constructor <;> linarith [h1.1, h1.2]
  have hc : ∀ x, |cs x| ≤ 1 + 2⁻¹ ^ 40 := fun x => by
    have h1 := abs_le.1 (T.cos x)
    have h2 := Real.neg_one_le_cos x
    have h3 := Real.cos_le_one x
    rw [abs_le]
    norm_num at h1 ⊢
    constructor <;> linarith [h1.1, h1.2]
  show |coord (circleValue fl sn cs c l).2 i| ≤ _
  unfold circleValue
  simp only
  split <;> cases i <;> simp only [coord, abs_neg] <;> first | exact hs _ | exact hc _

end StepperPaths.Proof
