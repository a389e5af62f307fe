import Verif.Model.RoundedBezier
import Verif.Spec.Rounded

/-!
An error calculus.  `App k n x' x X`: the computed `x'` is close to `x`, whose bound is `X`, up to `k`
roundings relative to `X`; `X` is at least `2⁻ⁿ`, so that a rounding does not underflow, unless `x'` is zero.
-/

namespace StepperPaths.Rounded.Acc
open Spec

/-- The relative error of `k` roundings. -/
noncomputable def g (k : ℕ) : ℝ := (1 + 1 / 2 ^ 52) ^ k - 1

theorem g_zero : g 0 = 0 := by simp [g]

theorem one_le (k : ℕ) : (1 : ℝ) ≤ (1 + 1 / 2 ^ 52) ^ k := one_le_pow₀ (by norm_num)

theorem g_nonneg (k : ℕ) : 0 ≤ g k := by
  have := one_le k
  unfold g; linarith

theorem g_mono {k l : ℕ} (h : k ≤ l) : g k ≤ g l := by
  have : ((1 : ℝ) + 1 / 2 ^ 52) ^ k ≤ (1 + 1 / 2 ^ 52) ^ l := pow_le_pow_right₀ (by norm_num) h
  unfold g; linarith

theorem g_add (k l : ℕ) : g (k + l) = g k + g l + g k * g l := by
  unfold g; rw [pow_add]; ring

theorem g_mul (k q : ℕ) : q * g k ≤ g (k * q) := by
  have h : -2 ≤ g k := by linarith [g_nonneg k]
  have := one_add_mul_le_pow h q
  unfold g at *
  rw [pow_mul]
  rw [add_sub_cancel] at this
  linarith

theorem g_le {k : ℕ} (h : (k : ℝ) ≤ 2 ^ 52) : g k ≤ 2 * k / 2 ^ 52 := by
  have h1 : ((1 : ℝ) + 1 / 2 ^ 52) ^ k ≤ Real.exp (k / 2 ^ 52) := by
    have := Real.add_one_le_exp ((1 : ℝ) / 2 ^ 52)
    calc ((1 : ℝ) + 1 / 2 ^ 52) ^ k ≤ Real.exp (1 / 2 ^ 52) ^ k := by gcongr; linarith
      _ = _ := by rw [← Real.exp_nat_mul]; congr 1; ring
  have hx0 : 0 ≤ (k : ℝ) / 2 ^ 52 := by positivity
  have hx1 : (k : ℝ) / 2 ^ 52 ≤ 1 := by rw [div_le_one (by norm_num)]; exact h
  have h2 := Real.abs_exp_sub_one_le (x := (k : ℝ) / 2 ^ 52) (by rwa [abs_of_nonneg hx0])
  rw [abs_of_nonneg hx0] at h2
  have := le_abs_self (Real.exp (k / 2 ^ 52) - 1)
  unfold g
  calc _ ≤ Real.exp (k / 2 ^ 52) - 1 := by linarith
    _ ≤ 2 * (k / 2 ^ 52) := by linarith
    _ = _ := by ring

structure App (k n : ℕ) (x' x X : ℝ) : Prop where
  le : |x| ≤ X
  err : |x' - x| ≤ g k * X
  floor : 1 / 2 ^ n ≤ X ∨ x' = 0

variable {fl : ℝ → ℝ} {k l n m : ℕ} {x' x X y' y Y : ℝ}

theorem App.nonneg (h : App k n x' x X) : 0 ≤ X := (abs_nonneg _).trans h.le

theorem App.abs_le (h : App k n x' x X) : |x'| ≤ (1 + g k) * X := by
  have e : x' = (x' - x) + x := by ring
  rw [e]
  have := abs_add_le (x' - x) x
  linarith [h.err, h.le]

theorem half_pow {n m : ℕ} (h : n ≤ m) : (1 : ℝ) / 2 ^ m ≤ 1 / 2 ^ n :=
  one_div_le_one_div_of_le (by positivity) (pow_le_pow_right₀ (by norm_num) h)

theorem App.mono (h : App k n x' x X) (hk : k ≤ l) (hn : n ≤ m) : App l m x' x X :=
  ⟨h.le, h.err.trans (mul_le_mul_of_nonneg_right (g_mono hk) h.nonneg),
    h.floor.imp (fun h => (half_pow hn).trans h) id⟩

theorem App.wide (h : App k n x' x X) (hX : X ≤ Y) : App k n x' x Y :=
  ⟨h.le.trans hX, h.err.trans (mul_le_mul_of_nonneg_left hX (g_nonneg k)), h.floor.imp (fun h => h.trans hX) id⟩

theorem App.zero (k n : ℕ) (hX : 0 ≤ X) : App k n 0 0 X :=
  ⟨by simpa using hX, by simpa using mul_nonneg (g_nonneg k) hX, .inr rfl⟩

theorem App.exact (hx : |x| ≤ X) (h : 1 / 2 ^ n ≤ X ∨ x = 0) : App 0 n x x X :=
  ⟨hx, by simp [g_zero], h⟩

theorem App.nat (b : ℕ) : App 0 0 (b : ℝ) b b := by
  refine App.exact (by simp) ?_
  rcases Nat.eq_zero_or_pos b with rfl | h
  · right; simp
  · left
    have : (1 : ℝ) ≤ b := by exact_mod_cast h
    simpa using this

theorem App.int (b : ℤ) : App 0 0 (b : ℝ) b |(b : ℝ)| := by
  refine App.exact le_rfl ?_
  rcases eq_or_ne b 0 with rfl | h
  · right; simp
  · left
    have : (1 : ℤ) ≤ |b| := Int.one_le_abs h
    have : (1 : ℝ) ≤ |(b : ℝ)| := by exact_mod_cast this
    simpa using this

theorem App.neg (h : App k n x' x X) : App k n (-x') (-x) X :=
  ⟨by rw [abs_neg]; exact h.le, by
    rw [show -x' - -x = -(x' - x) by ring, abs_neg]; exact h.err, h.floor.imp id (by rintro rfl; simp)⟩

theorem App.add (h : App k n x' x X) (h' : App k n y' y Y) : App k n (x' + y') (x + y) (X + Y) := by
  refine ⟨(abs_add_le _ _).trans (add_le_add h.le h'.le), ?_, ?_⟩
  · rw [show x' + y' - (x + y) = (x' - x) + (y' - y) by ring, mul_add]
    exact (abs_add_le _ _).trans (add_le_add h.err h'.err)
  · rcases h.floor with h1 | h1
    · left; linarith [h'.nonneg]
    · rcases h'.floor with h2 | h2
      · left; linarith [h.nonneg]
      · right; rw [h1, h2, add_zero]

theorem App.sub (h : App k n x' x X) (h' : App k n y' y Y) : App k n (x' - y') (x - y) (X + Y) := by
  rw [sub_eq_add_neg, sub_eq_add_neg]
  exact h.add h'.neg

theorem App.mul (h : App k n x' x X) (h' : App l m y' y Y) : App (k + l) (n + m) (x' * y') (x * y) (X * Y) := by
  have hX := h.nonneg
  have hY := h'.nonneg
  refine ⟨?_, ?_, ?_⟩
  · rw [abs_mul]; exact mul_le_mul h.le h'.le (abs_nonneg _) hX
  · have e : x' * y' - x * y = (x' - x) * (y' - y) + (x' - x) * y + x * (y' - y) := by ring
    rw [e, g_add]
    refine (abs_add_le _ _).trans ((add_le_add (abs_add_le _ _) le_rfl).trans ?_)
    rw [abs_mul, abs_mul, abs_mul]
    have h1 : |x' - x| * |y' - y| ≤ (g k * X) * (g l * Y) :=
      mul_le_mul h.err h'.err (abs_nonneg _) (mul_nonneg (g_nonneg k) hX)
    have h2 : |x' - x| * |y| ≤ (g k * X) * Y := mul_le_mul h.err h'.le (abs_nonneg _) (mul_nonneg (g_nonneg k) hX)
    have h3 : |x| * |y' - y| ≤ X * (g l * Y) := mul_le_mul h.le h'.err (abs_nonneg _) hX
    calc _ ≤ (g k * X) * (g l * Y) + (g k * X) * Y + X * (g l * Y) := by linarith
      _ = _ := by ring
  · rcases h.floor with h1 | h1
    · rcases h'.floor with h2 | h2
      · left
        rw [pow_add, ← one_div_mul_one_div]
        exact mul_le_mul h1 h2 (by positivity) hX
      · right; rw [h2, mul_zero]
    · right; rw [h1, zero_mul]

theorem fl_zero (hf : FloatRounding fl) : fl 0 = 0 := by simpa using hf.int 0 (by simp)

theorem App.rnd (h : App k n x' x X) (hf : FloatRounding fl) (hn : n ≤ 1022) : App (k + 1) n (fl x') x X := by
  have hX := h.nonneg
  refine ⟨h.le, ?_, h.floor.imp id (by rintro rfl; exact fl_zero hf)⟩
  rcases h.floor with h1 | h1
  · have e : fl x' - x = (fl x' - x') + (x' - x) := by ring
    rw [e]
    refine (abs_add_le _ _).trans ?_
    have h2 := hf.near x'
    have h3 : (2⁻¹ : ℝ) ^ 1075 ≤ 2⁻¹ ^ 53 * X := by
      have : (2⁻¹ : ℝ) ^ 1022 ≤ X := by
        refine le_trans ?_ h1
        rw [inv_pow, ← one_div]
        exact half_pow hn
      calc (2⁻¹ : ℝ) ^ 1075 = 2⁻¹ ^ 53 * 2⁻¹ ^ 1022 := by rw [← pow_add]
        _ ≤ _ := by gcongr
    have h4 : (2⁻¹ : ℝ) ^ 53 * |x'| ≤ 2⁻¹ ^ 53 * ((1 + g k) * X) := by
      gcongr
      exact h.abs_le
    have e1 : g (k + 1) = g k + (1 + g k) * (1 / 2 ^ 52) := by unfold g; rw [pow_succ]; ring
    have e2 : (2⁻¹ : ℝ) ^ 53 = 1 / 2 ^ 52 / 2 := by norm_num
    have h5 : 0 ≤ g k * X := mul_nonneg (g_nonneg k) hX
    rw [e2] at h2 h3 h4
    rw [e1, add_mul]
    have h6 : (1 : ℝ) / 2 ^ 52 / 2 * X ≤ 1 / 2 ^ 52 / 2 * ((1 + g k) * X) := by
      gcongr
      nlinarith
    calc |fl x' - x'| + |x' - x| ≤ 1 / 2 ^ 52 / 2 * ((1 + g k) * X) + 1 / 2 ^ 52 / 2 * ((1 + g k) * X) + g k * X :=
          add_le_add (h2.trans (add_le_add h4 (h3.trans h6))) h.err
      _ = _ := by ring
  · rw [h1, fl_zero hf]
    have := h.err
    rw [h1] at this
    exact this.trans (mul_le_mul_of_nonneg_right (g_mono (Nat.le_succ k)) hX)

/-- The reciprocal of a number that is known up to a relative error. -/
theorem App.inv (h : App k n x' x |x|) (hx : x ≠ 0) (hk : g k ≤ 1 / 2) (hm : |x| ≤ 2 ^ m) :
    App (2 * k) m (1 / x') (1 / x) (1 / |x|) := by
  have hp : 0 < |x| := abs_pos.2 hx
  have hg := g_nonneg k
  have hlow : (1 - g k) * |x| ≤ |x'| := by
    have : |x| ≤ |x'| + |x' - x| := by
      have := abs_add_le x' (-(x' - x))
      rw [abs_neg, show x' + -(x' - x) = x by ring] at this
      exact this
    linarith [h.err]
  have hp' : 0 < |x'| := lt_of_lt_of_le (mul_pos (by linarith) hp) hlow
  have hx' : x' ≠ 0 := abs_pos.1 hp'
  refine ⟨by rw [abs_div, abs_one], ?_, .inl (one_div_le_one_div_of_le hp hm)⟩
  have e : 1 / x' - 1 / x = (x - x') / (x' * x) := by field_simp
  rw [e, abs_div, abs_mul, abs_sub_comm, two_mul, g_add, mul_one_div, div_le_div_iff₀ (mul_pos hp' hp) hp]
  have h1 : |x' - x| * |x| ≤ g k * |x| * |x| := mul_le_mul_of_nonneg_right h.err hp.le
  refine h1.trans ?_
  have h2 : (g k + g k + g k * g k) * ((1 - g k) * |x| * |x|) ≤ (g k + g k + g k * g k) * (|x'| * |x|) := by
    gcongr
  refine le_trans ?_ h2
  have h3 : g k ≤ (g k + g k + g k * g k) * (1 - g k) := by nlinarith [mul_nonneg hg hg]
  have h4 : 0 ≤ |x| * |x| := by positivity
  calc g k * |x| * |x| = g k * (|x| * |x|) := by ring
    _ ≤ (g k + g k + g k * g k) * (1 - g k) * (|x| * |x|) := mul_le_mul_of_nonneg_right h3 h4
    _ = _ := by ring

theorem App.divNat (h : App k n x' x X) {b : ℕ} (hb : 0 < b) (hb' : b ≤ 2 ^ m) :
    App k (n + m) (x' / b) (x / b) (X / b) := by
  have h0 : (0 : ℝ) < b := by exact_mod_cast hb
  have hm : (b : ℝ) ≤ 2 ^ m := by exact_mod_cast hb'
  have h1 : App 0 m (1 / (b : ℝ)) (1 / b) (1 / b) := by
    refine App.exact (by rw [abs_of_pos (by positivity)]) (.inl (one_div_le_one_div_of_le h0 hm))
  have := h.mul h1
  simpa only [mul_one_div, add_zero] using this

/-! ### Lists -/

/-- The same for the entries of lists of the same length. -/
inductive Apps (k n : ℕ) : List ℝ → List ℝ → List ℝ → Prop
  | nil : Apps k n [] [] []
  | cons {x' x X p' p A} : App k n x' x X → Apps k n p' p A → Apps k n (x' :: p') (x :: p) (X :: A)

variable {p' p A q' q B : List ℝ}

theorem Apps.mono (h : Apps k n p' p A) (hk : k ≤ l) (hn : n ≤ m) : Apps l m p' p A := by
  induction h with
  | nil => exact .nil
  | cons h _ ih => exact .cons (h.mono hk hn) ih

theorem Apps.length (h : Apps k n p' p A) : p'.length = p.length ∧ A.length = p.length := by
  induction h with
  | nil => exact ⟨rfl, rfl⟩
  | cons h _ ih => simp [ih.1, ih.2]

theorem Apps.get (h : Apps k n p' p A) {i : ℕ} (hi : i < p.length) :
    ∃ x' x X, p'[i]? = some x' ∧ p[i]? = some x ∧ A[i]? = some X ∧ App k n x' x X := by
  induction h generalizing i with
  | nil => simp at hi
  | cons h _ ih =>
    cases i with
    | zero => exact ⟨_, _, _, rfl, rfl, rfl, h⟩
    | succ i => exact ih (by simpa using hi)

theorem Apps.set (h : Apps k n p' p A) {i : ℕ} (hx : App k n x' x X) : Apps k n (p'.set i x') (p.set i x) (A.set i X) := by
  induction h generalizing i with
  | nil => exact .nil
  | cons h hs ih =>
    cases i with
    | zero => exact .cons hx hs
    | succ i => exact .cons h ih

theorem Apps.append (h : Apps k n p' p A) (h' : Apps k n q' q B) : Apps k n (p' ++ q') (p ++ q) (A ++ B) := by
  induction h with
  | nil => exact h'
  | cons h hs ih => exact .cons h ih

theorem Apps.zeros (k n r : ℕ) : Apps k n (List.replicate r 0) (List.replicate r 0) (List.replicate r 0) := by
  induction r with
  | zero => exact .nil
  | succ r ih => exact .cons (App.zero k n le_rfl) ih

/-! ### Computations that may fail -/

/-- The same control flow in three computations. -/
def Opt3 {α β γ : Type*} (R : α → β → γ → Prop) : Option α → Option β → Option γ → Prop
  | some a, some b, some c => R a b c
  | none, none, none => True
  | _, _, _ => False

section
variable {α β γ α' β' γ' : Type*} {R : α → β → γ → Prop} {S : α' → β' → γ' → Prop}

theorem Opt3.bind {x : Option α} {y : Option β} {z : Option γ} (h : Opt3 R x y z) {f : α → Option α'} {g : β → Option β'}
    {k : γ → Option γ'} (hf : ∀ a b c, R a b c → Opt3 S (f a) (g b) (k c)) : Opt3 S (x.bind f) (y.bind g) (z.bind k) := by
  cases x <;> cases y <;> cases z <;> first | trivial | exact h.elim | exact hf _ _ _ h

theorem Opt3.imp {x : Option α} {y : Option β} {z : Option γ} {R' : α → β → γ → Prop} (h : Opt3 R x y z)
    (hi : ∀ a b c, R a b c → R' a b c) : Opt3 R' x y z := by
  cases x <;> cases y <;> cases z <;> first | trivial | exact h.elim | exact hi _ _ _ h

theorem Opt3.some {x : Option α} {y : Option β} {z : Option γ} {b : β} (h : Opt3 R x y z) (hy : y = some b) :
    ∃ a c, x = Option.some a ∧ z = Option.some c ∧ R a b c := by
  subst hy
  cases x <;> cases z <;> first | exact ⟨_, _, rfl, rfl, h⟩ | exact h.elim

end

theorem Apps.opt (h : Apps k n p' p A) (i : ℕ) : Opt3 (App k n) p'[i]? p[i]? A[i]? := by
  by_cases hi : i < p.length
  · obtain ⟨x', x, X, h1, h2, h3, h4⟩ := h.get hi
    rw [h1, h2, h3]; exact h4
  · have := h.length
    rw [List.getElem?_eq_none (by omega), List.getElem?_eq_none (by omega), List.getElem?_eq_none (by omega)]
    trivial

theorem mapM_apps {f' f F : ℕ → Option ℝ} : ∀ (l : List ℕ), (∀ i ∈ l, Opt3 (App k n) (f' i) (f i) (F i)) →
    Opt3 (Apps k n) (l.mapM f') (l.mapM f) (l.mapM F)
  | [], _ => Apps.nil
  | i :: l, h => by
    rw [List.mapM_cons, List.mapM_cons, List.mapM_cons]
    refine (h i (by simp)).bind fun a b c h1 => (mapM_apps l fun j hj => h j (by simp [hj])).bind fun a' b' c' h2 => ?_
    exact Apps.cons h1 h2

end StepperPaths.Rounded.Acc
