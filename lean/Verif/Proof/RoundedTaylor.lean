import Verif.Proof.RoundedPoly
import Verif.Proof.Taylor
import Verif.Spec.RoundedBezier

/-! The errors of `taylor_sequence`, `Verif.Model.RoundedBezier`. -/

namespace StepperPaths.Rounded.Acc
open Spec SqrtPoly

variable {fl : ℝ → ℝ} {pw : ℝ → ℝ → ℝ}

/-! ### Powers -/

theorem abs_exp_sub_one (a : ℝ) : |Real.exp a - 1| ≤ Real.exp |a| - 1 := by
  have h1 : Real.exp a ≤ Real.exp |a| := Real.exp_le_exp.2 (le_abs_self a)
  have h2 := Real.add_one_le_exp a
  have h3 := Real.add_one_le_exp |a|
  have h4 := neg_abs_le a
  rw [abs_le]; constructor <;> linarith

theorem rpow_near {κ : ℕ} {s' s z : ℝ} (hs : 0 < s) (h : |s' - s| ≤ g κ * s) (hκ : g κ ≤ 1 / 2) (hz : |z| ≤ 11 / 2) :
    0 < s' ∧ |s' ^ z - s ^ z| ≤ g (11 * κ) * s ^ z := by
  have hg := g_nonneg κ
  rw [abs_le] at h
  have h0 : 0 < s' := by nlinarith
  refine ⟨h0, ?_⟩
  set y := 1 + g κ with hy
  have hy1 : 1 ≤ y := by linarith
  have hyp : 0 < y := by linarith
  set r := s' / s with hr
  have hrp : 0 < r := div_pos h0 hs
  have hs' : s' = r * s := by rw [hr]; field_simp
  have r1 : r ≤ y := by rw [hr, div_le_iff₀ hs]; nlinarith
  have r2 : 2 - y ≤ r := by rw [hr, le_div_iff₀ hs]; nlinarith
  have hl0 : 0 ≤ Real.log y := Real.log_nonneg hy1
  have l1 : Real.log r ≤ Real.log y := Real.log_le_log hrp r1
  have l2 : -(2 * Real.log y) ≤ Real.log r := by
    have : Real.log (1 / y ^ 2) ≤ Real.log r := by
      apply Real.log_le_log (by positivity)
      refine le_trans ?_ r2
      rw [div_le_iff₀ (by positivity)]
      have : 0 ≤ (y - 1) * (1 + y - y ^ 2) := mul_nonneg (by linarith) (by nlinarith)
      nlinarith
    rwa [one_div, Real.log_inv, Real.log_pow, Nat.cast_ofNat] at this
  have l3 : |Real.log r| ≤ 2 * Real.log y := abs_le.2 ⟨l2, by linarith⟩
  have l4 : |Real.log r * z| ≤ 11 * Real.log y := by
    rw [abs_mul]
    calc _ ≤ 2 * Real.log y * (11 / 2) := mul_le_mul l3 hz (abs_nonneg _) (by linarith)
      _ = _ := by ring
  have e1 : s' ^ z - s ^ z = (Real.exp (Real.log r * z) - 1) * s ^ z := by
    rw [hs', Real.mul_rpow hrp.le hs.le, Real.rpow_def_of_pos hrp]; ring
  have hz0 : 0 ≤ s ^ z := Real.rpow_nonneg hs.le z
  rw [e1, abs_mul, abs_of_nonneg hz0]
  apply mul_le_mul_of_nonneg_right _ hz0
  refine (abs_exp_sub_one _).trans ?_
  have : Real.exp |Real.log r * z| ≤ Real.exp (11 * Real.log y) := Real.exp_le_exp.2 l4
  have e2 : Real.exp (11 * Real.log y) = y ^ 11 := by
    rw [show (11 : ℝ) = ((11 : ℕ) : ℝ) by norm_num, Real.exp_nat_mul, Real.exp_log hyp]
  have e3 : g (11 * κ) = y ^ 11 - 1 := by
    rw [hy]; unfold g; rw [mul_comm, pow_mul]; ring_nf
  rw [e3, ← e2]
  linarith

/-- The numbers with which `taylor_sequence` begins. -/
structure Base (fl : ℝ → ℝ) (pw : ℝ → ℝ → ℝ) (kb nb kt κ : ℕ) (b' b β : List ℝ) (t' t s : ℝ) : Prop where
  round : FloatRounding fl
  pow : FloatPow pw
  base : Apps kb nb b' b β
  len : b.length = 5
  at' : App kt 5 t' t t
  val : polyval b t = s
  low : 1 / 2 ^ 60 ≤ s
  high : s ≤ 2 ^ 60
  rel : |polyvalF fl b' t' - s| ≤ g κ * s
  small : g κ ≤ 1 / 2
  deep : 6 * nb ≤ 560

variable {kb nb kt κ : ℕ} {b' b β : List ℝ} {t' t s : ℝ}

theorem Base.pos (h : Base fl pw kb nb kt κ b' b β t' t s) : 0 < s := lt_of_lt_of_le (by positivity) h.low

theorem Base.power_floor (h : Base fl pw kb nb kt κ b' b β t' t s) {z : ℝ} (hz : |z| ≤ 11 / 2) :
    1 / 2 ^ 330 ≤ s ^ z := by
  have hs := h.pos
  have l1 : |Real.log s| ≤ 60 * Real.log 2 := by
    rw [abs_le]
    constructor
    · have := Real.log_le_log (by positivity) h.low
      rwa [one_div, Real.log_inv, Real.log_pow, Nat.cast_ofNat] at this
    · have := Real.log_le_log hs h.high
      rwa [Real.log_pow, Nat.cast_ofNat] at this
  have l2 : |Real.log s * z| ≤ 330 * Real.log 2 := by
    rw [abs_mul]
    have := Real.log_nonneg (by norm_num : (1 : ℝ) ≤ 2)
    calc _ ≤ 60 * Real.log 2 * (11 / 2) := mul_le_mul l1 hz (abs_nonneg _) (by linarith)
      _ = _ := by ring
  rw [Real.rpow_def_of_pos hs]
  have e : (1 : ℝ) / 2 ^ 330 = Real.exp (-(330 * Real.log 2)) := by
    rw [Real.exp_neg, show (330 : ℝ) = ((330 : ℕ) : ℝ) by norm_num, Real.exp_nat_mul, Real.exp_log (by norm_num), one_div]
  rw [e]
  exact Real.exp_le_exp.2 (abs_le.1 l2).1

theorem Base.power (h : Base fl pw kb nb kt κ b' b β t' t s) {z : ℝ} (hz : |z| ≤ 11 / 2) :
    App (11 * κ + 1) 330 (pw (polyvalF fl b' t') z) (s ^ z) (s ^ z) := by
  have hs := h.pos
  obtain ⟨h0, h1⟩ := rpow_near hs h.rel h.small hz
  set s' := polyvalF fl b' t'
  have hz0 : 0 ≤ s ^ z := Real.rpow_nonneg hs.le z
  have hr := abs_le.1 h.rel
  have hg := g_nonneg κ
  have hsm := h.small
  have hh := h.high
  have hl := h.low
  have b1 : s / 2 ≤ s' := by nlinarith [hr.1]
  have b2 : s' ≤ 2 * s := by nlinarith [hr.2]
  have h2 := h.pow s' z (by
    refine le_trans ?_ b1
    refine le_trans ?_ (div_le_div_of_nonneg_right hl (by norm_num))
    norm_num) (by
    refine b2.trans ((mul_le_mul_of_nonneg_left hh (by norm_num)).trans ?_)
    norm_num) (hz.trans (by norm_num))
  refine ⟨by rw [abs_of_nonneg hz0], ?_, .inl (h.power_floor hz)⟩
  have e : pw s' z - s ^ z = (pw s' z - s' ^ z) + (s' ^ z - s ^ z) := by ring
  rw [e]
  refine (abs_add_le _ _).trans ?_
  have h3 : s' ^ z ≤ (1 + g (11 * κ)) * s ^ z := by
    have := (abs_le.1 h1).2
    linarith
  have e1 : g (11 * κ + 1) = g (11 * κ) + (1 + g (11 * κ)) * (1 / 2 ^ 52) := by unfold g; rw [pow_succ]; ring
  have h4 : 1 / 2 ^ 52 * s' ^ z ≤ 1 / 2 ^ 52 * ((1 + g (11 * κ)) * s ^ z) :=
    mul_le_mul_of_nonneg_left h3 (by positivity)
  rw [e1]
  calc _ ≤ 1 / 2 ^ 52 * ((1 + g (11 * κ)) * s ^ z) + g (11 * κ) * s ^ z := add_le_add (h2.trans h4) h1
    _ = _ := by ring

theorem Base.root (h : Base fl pw kb nb kt κ b' b β t' t s) :
    App (11 * κ + 1) 330 (fl (Real.sqrt (polyvalF fl b' t'))) (√s) (√s) := by
  have hz : |(1 / 2 : ℝ)| ≤ 11 / 2 := by norm_num [abs_of_pos]
  obtain ⟨h0, h1⟩ := rpow_near h.pos h.rel h.small hz
  have h2 := h.power_floor hz
  rw [← Real.sqrt_eq_rpow, ← Real.sqrt_eq_rpow] at h1
  rw [← Real.sqrt_eq_rpow] at h2
  have : App (11 * κ) 330 (Real.sqrt (polyvalF fl b' t')) (√s) (√s) :=
    ⟨by rw [abs_of_nonneg (Real.sqrt_nonneg s)], h1, .inl h2⟩
  exact this.rnd h.round (by norm_num)

/-! ### Terms -/

/-- A computed term, the exact one, and one with a bound for the polynomial. -/
structure TermApp (j kb nb : ℕ) (T' T M : Term) : Prop where
  c : App (2 * j) j T'.c T.c |T.c|
  same : M.c = T.c
  e' : T'.e = T.e
  e : M.e = T.e
  low : 1 - 2 * (j : ℤ) ≤ T.e
  high : T.e ≤ 1
  p : Apps (j * (kb + 6)) (j * nb) T'.polynom T.polynom M.polynom
  len : T.polynom.length ≤ 1 + 3 * j

inductive Terms (j kb nb : ℕ) : List Term → List Term → List Term → Prop
  | nil : Terms j kb nb [] [] []
  | cons {a b c x y z} : TermApp j kb nb a b c → Terms j kb nb x y z → Terms j kb nb (a :: x) (b :: y) (c :: z)

theorem Terms.append {j : ℕ} {x y z x2 y2 z2 : List Term} (h : Terms j kb nb x y z) (h' : Terms j kb nb x2 y2 z2) :
    Terms j kb nb (x ++ x2) (y ++ y2) (z ++ z2) := by
  induction h with
  | nil => exact h'
  | cons h hs ih => exact .cons h ih

theorem Terms.one {j : ℕ} {a b c : Term} (h : TermApp j kb nb a b c) : Terms j kb nb [a] [b] [c] := .cons h .nil

/-- The bound for a term. -/
noncomputable def evalM (s t : ℝ) (M : Term) : ℝ := s ^ ((M.e : ℝ) / 2) * |M.c| * polyval M.polynom t

noncomputable def sumM (s t : ℝ) (ms : List Term) : ℝ := (ms.map (evalM s t)).sum

theorem sumM_append (a b : List Term) : sumM s t (a ++ b) = sumM s t a + sumM s t b := by simp [sumM]
theorem sumM_one (a : Term) : sumM s t [a] = evalM s t a := by simp [sumM]

/-- The roundings of one value. -/
def evalCount (kb kt κ : ℕ) : ℕ := 11 * κ + 6 * kb + 19 * (kt + 2) + 51

theorem eval_app (h : Base fl pw kb nb kt κ b' b β t' t s) {j : ℕ} (hj : j ≤ 6) {T' T M : Term}
    (hT : TermApp j kb nb T' T M) :
    App (evalCount kb kt κ) (6 * nb + 431) (evalF fl pw ⟨t', b'⟩ T') (Diff.eval ⟨t, b⟩ T) (evalM s t M) := by
  have hz : |(T.e : ℝ) / 2| ≤ 11 / 2 := by
    have h1 := hT.low
    have h2 := hT.high
    have h3 : (-11 : ℝ) ≤ T.e := by exact_mod_cast (by omega : (-11 : ℤ) ≤ T.e)
    have h4 : (T.e : ℝ) ≤ 1 := by exact_mod_cast h2
    rw [abs_le]; constructor <;> linarith
  have hd := h.deep
  have hjn : j * nb ≤ 6 * nb := Nat.mul_le_mul_right _ hj
  have hjk : j * (kb + 6) ≤ 6 * (kb + 6) := Nat.mul_le_mul_right _ hj
  have hl := hT.len
  have hl2 : 5 * T.polynom.length ≤ 95 := by omega
  have hl3 : (kt + 2) * T.polynom.length ≤ (kt + 2) * 19 := Nat.mul_le_mul_left _ (by omega)
  have h1 := ((h.power hz).mul hT.c).rnd h.round (by omega)
  have h2 := polyval_app h.round h.at' hT.p (by omega)
  have h3 := (h1.mul h2).rnd h.round (by omega)
  unfold evalF Diff.eval evalM baseValF Diff.baseVal
  rw [hT.e', hT.e, hT.same]
  simp only []
  rw [h.val]
  refine h3.mono ?_ (by omega)
  unfold evalCount
  omega

theorem diffSingle_app (h : Base fl pw kb nb kt κ b' b β t' t s) {j : ℕ} (hj : j ≤ 5) {T' T M : Term}
    (hT : TermApp j kb nb T' T M) :
    Opt3 (fun a c d => TermApp (j + 1) kb nb a.1 c.1 d.1 ∧ TermApp (j + 1) kb nb a.2 c.2 d.2)
      (diffSingleF fl ⟨t', b'⟩ T') (diffSingle ⟨t, b⟩ T) (diffSingle ⟨t, β⟩ M) := by
  have hd := h.deep
  have hlen := h.len
  have hjn : j * nb + nb ≤ 6 * nb := by
    rw [← Nat.succ_mul]; exact Nat.mul_le_mul_right _ (by omega)
  have ejn : (j + 1) * nb = j * nb + nb := by ring
  have ejk : (j + 1) * (kb + 6) = j * (kb + 6) + kb + 6 := by ring
  simp only [diffSingleF, diffSingle]
  obtain ⟨d, hd1⟩ := polyder_isSome (p := b) (by rintro rfl; simp at hlen)
  obtain ⟨d', D, hd2, hd3, hD⟩ := (polyder_app h.round (by omega) h.base).some hd1
  have ld := polyder_length hd1
  rw [hd1, hd2, hd3]
  simp only [Option.bind_eq_bind, Option.bind_some]
  obtain ⟨m, hm1⟩ := polymul_isSome (a := T.polynom) (b := d) (by rintro rfl; simp at ld; omega)
  obtain ⟨m', MM, hm2, hm3, hM⟩ := (polymul_app h.round (by omega) hT.p hD).some hm1
  have lm := polymul_length hm1
  rw [hm1, hm2, hm3]
  simp only [Option.bind_some]
  have l3 := hT.len
  have hc : App (2 * (j + 1)) (j + 1) (fl (fl (T'.c * (1 / 2)) * (T'.e : ℝ))) (T.c * (1 / 2) * (T.e : ℝ))
      |T.c * (1 / 2) * (T.e : ℝ)| := by
    have h2 : App 0 1 (1 / 2 : ℝ) (1 / 2) (1 / 2) := App.exact (by norm_num [abs_of_pos]) (.inl (by norm_num))
    have := ((((hT.c.mul h2).rnd h.round (by omega)).mul (App.int T.e)).rnd h.round (by omega)).mono
      (l := 2 * (j + 1)) (m := j + 1) (by omega) (by omega)
    rw [hT.e']
    rw [abs_mul, abs_mul, abs_of_pos (by norm_num : (0 : ℝ) < 1 / 2)]
    exact this
  have hlow := hT.low
  have hhigh := hT.high
  rcases hp : T.polynom with _ | ⟨x, xs⟩
  · have hp' := hT.p
    rw [hp] at hp'
    have l := hp'.length
    rw [List.length_nil] at l
    rw [List.length_eq_zero_iff.1 l.1, List.length_eq_zero_iff.1 l.2]
    trivial
  rw [← hp]
  obtain ⟨q, hq1⟩ := polyder_isSome (p := T.polynom) (by rw [hp]; simp)
  obtain ⟨q', Q, hq2, hq3, hQ⟩ := (polyder_app h.round (by omega) hT.p).some hq1
  have lq := polyder_length hq1
  rw [hq1, hq2, hq3]
  simp only [Option.bind_some]
  refine ⟨⟨hc, ?_, ?_, ?_, ?_, ?_, hM.mono (by rw [ejk]; omega) (by rw [ejn]), ?_⟩,
    ⟨hT.c.mono (by omega) (by omega), hT.same, hT.e', hT.e, ?_, hhigh, hQ.mono (by rw [ejk]; omega) (by rw [ejn]; omega), ?_⟩⟩
  · simp only [hT.same, hT.e]
  · simp only [hT.e']
  · simp only [hT.e]
  · simp only []; push_cast; omega
  · simp only []; omega
  · simp only []; omega
  · push_cast; omega
  · simp only []; omega

theorem diffLoop_app (h : Base fl pw kb nb kt κ b' b β t' t s) {j : ℕ} (hj : j ≤ 5) {x y z : List Term}
    (hx : Terms j kb nb x y z) : ∀ (r' r R : List Term) (v' v V : ℝ) (w : ℕ), Terms (j + 1) kb nb r' r R →
    App (evalCount kb kt κ + w) (6 * nb + 431) v' v (sumM s t R) →
    Opt3 (fun a c d => Terms (j + 1) kb nb a.1 c.1 d.1 ∧
        App (evalCount kb kt κ + w + 2 * y.length) (6 * nb + 431) a.2 c.2 (sumM s t d.1) ∧ c.1.length ≤ r.length + 2 * y.length)
      (diffLoopF fl pw ⟨t', b'⟩ x r' v') (diffLoop ⟨t, b⟩ y r v) (diffLoop ⟨t, β⟩ z R V) := by
  have hd := h.deep
  induction hx with
  | nil => exact fun r' r R v' v V w hr hv => ⟨hr, hv, le_rfl⟩
  | @cons a c d x y z ha hs ih =>
    intro r' r R v' v V w hr hv
    simp only [diffLoopF, diffLoop]
    refine (diffSingle_app h hj ha).bind ?_
    rintro ⟨a1, a2⟩ ⟨c1, c2⟩ ⟨d1, d2⟩ ⟨h1, h2⟩
    simp only at h1 h2 ⊢
    have l := h2.p.length
    have e1 : a2.polynom.isEmpty = c2.polynom.isEmpty := by
      rw [Bool.eq_iff_iff, List.isEmpty_iff, List.isEmpty_iff, ← List.length_eq_zero_iff, ← List.length_eq_zero_iff, l.1]
    have e2 : d2.polynom.isEmpty = c2.polynom.isEmpty := by
      rw [Bool.eq_iff_iff, List.isEmpty_iff, List.isEmpty_iff, ← List.length_eq_zero_iff, ← List.length_eq_zero_iff, l.2]
    have v1 := (hv.add ((eval_app h (by omega) h1).mono (by omega) le_rfl)).rnd h.round (by omega)
    rw [e1, e2]
    split
    · have := ih (r' ++ [a1]) (r ++ [c1]) (R ++ [d1]) _ _ (V + Diff.eval ⟨t, β⟩ d1) (w + 1) (hr.append (.one h1))
        (by rw [sumM_append, sumM_one]; exact v1)
      refine this.imp fun _ _ _ hh => ⟨hh.1, hh.2.1.mono ?_ le_rfl, hh.2.2.trans ?_⟩
      · rw [List.length_cons]; omega
      · simp only [List.length_append, List.length_cons, List.length_nil]; omega
    · have v2 := (v1.add ((eval_app h (by omega) h2).mono (by omega) le_rfl)).rnd h.round (by omega)
      have := ih (r' ++ [a1] ++ [a2]) (r ++ [c1] ++ [c2]) (R ++ [d1] ++ [d2]) _ _ (V + Diff.eval ⟨t, β⟩ d1 + Diff.eval ⟨t, β⟩ d2) (w + 2)
        ((hr.append (.one h1)).append (.one h2))
        (by rw [sumM_append, sumM_append, sumM_one, sumM_one]; exact v2)
      refine this.imp fun _ _ _ hh => ⟨hh.1, hh.2.1.mono ?_ le_rfl, hh.2.2.trans ?_⟩
      · rw [List.length_cons]; omega
      · simp only [List.length_append, List.length_cons, List.length_nil]; omega

theorem diffSqrtPoly_app (h : Base fl pw kb nb kt κ b' b β t' t s) {j : ℕ} (hj : j ≤ 5) {x y z : List Term}
    (hx : Terms j kb nb x y z) :
    Opt3 (fun a c d => Terms (j + 1) kb nb a.1 c.1 d.1 ∧
        App (evalCount kb kt κ + 2 * y.length) (6 * nb + 431) a.2 c.2 (sumM s t d.1) ∧ c.1.length ≤ 2 * y.length)
      (diffSqrtPolyF fl pw ⟨t', b'⟩ x) (diffSqrtPoly ⟨t, b⟩ y) (diffSqrtPoly ⟨t, β⟩ z) := by
  have := diffLoop_app h hj hx [] [] [] 0 0 0 0 .nil (App.zero _ _ le_rfl)
  simpa [diffSqrtPolyF, diffSqrtPoly] using this

end StepperPaths.Rounded.Acc
