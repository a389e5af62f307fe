import Verif.Model.Polynom
import Verif.Spec.Polynom
import Verif.Proof.Taylor
import Mathlib.Topology.Order.IntermediateValue

/-! Lemmas about `polynom.rs`. -/

namespace StepperPaths.Polynom
open Spec Set

/-! ### Evaluation -/

theorem polyFn_cons (c : ℝ) (p : List ℝ) (t : ℝ) : polyFn (c :: p) t = c + t * polyFn p t := by
  rw [polyFn, List.length_cons, Finset.sum_range_succ', polyFn, Finset.mul_sum, add_comm]
  simp only [List.getD_cons_succ, List.getD_cons_zero, pow_zero, mul_one, pow_succ]
  congr 1
  exact Finset.sum_congr rfl fun i _ => by ring

theorem polyFn_nil (t : ℝ) : polyFn [] t = 0 := by simp [polyFn]

theorem polyFn_polyval (p : List ℝ) (t : ℝ) : polyFn p t = SqrtPoly.polyval p t := by
  induction p with
  | nil => simp [polyFn, SqrtPoly.polyval]
  | cons c p ih =>
    rw [polyFn_cons, ih, show SqrtPoly.polyval (c :: p) t = SqrtPoly.polyval p t * t + c from rfl]
    ring

theorem polyFn_continuous (p : List ℝ) : Continuous (polyFn p) := by
  unfold polyFn
  fun_prop

theorem polyFn_append_zero (p : List ℝ) (t : ℝ) : polyFn (p ++ [0]) t = polyFn p t := by
  induction p with
  | nil => simp [polyFn]
  | cons c p ih => rw [List.cons_append, polyFn_cons, polyFn_cons, ih]

theorem valueLoop_eq (t : ℝ) (ps : List ℝ) (sum f : ℝ) : valueLoop t ps sum f = sum + f * polyFn ps t := by
  induction ps generalizing sum f with
  | nil => simp [valueLoop, polyFn]
  | cons p ps ih => rw [valueLoop, ih, polyFn_cons]; ring

theorem value_eq {p : List ℝ} {n : ℕ} (h0 : 0 < n) (hn : n ≤ p.length) (t : ℝ) :
    value p n t = some (polyFn (p.take n) t) := by
  cases p with
  | nil => simp at hn; omega
  | cons c ps =>
    obtain ⟨n, rfl⟩ : ∃ m, n = m + 1 := ⟨n - 1, by omega⟩
    rw [List.length_cons] at hn
    rw [value, if_neg (by omega), valueLoop_eq, List.take_succ_cons, polyFn_cons]
    rfl

theorem asI8_small {n : ℕ} (h : n < 128) : asI8 n = n := by
  unfold asI8
  rw [Int.bmod_def]
  split <;> omega

theorem derivFrom_eq {i : ℕ} {ps : List ℝ} (h : i + ps.length < 128) :
    derivFrom i ps = SqrtPoly.derFrom i ps := by
  induction ps generalizing i with
  | nil => rfl
  | cons p ps ih =>
    rw [List.length_cons] at h
    rw [derivFrom, SqrtPoly.derFrom, ih (by omega), asI8_small (by omega), mul_comm]
    rfl

theorem derFrom_take (i k : ℕ) (ps : List ℝ) :
    (SqrtPoly.derFrom i ps).take k = SqrtPoly.derFrom i (ps.take k) := by
  induction ps generalizing i k with
  | nil => simp [SqrtPoly.derFrom]
  | cons p ps ih =>
    cases k with
    | zero => simp [SqrtPoly.derFrom]
    | succ k => simp [SqrtPoly.derFrom, ih]

theorem derFrom_length (i : ℕ) (ps : List ℝ) : (SqrtPoly.derFrom i ps).length = ps.length := by
  induction ps generalizing i with
  | nil => rfl
  | cons p ps ih => simp [SqrtPoly.derFrom, ih]

theorem derFrom_getElem? (i k : ℕ) (ps : List ℝ) :
    (SqrtPoly.derFrom i ps)[k]? = ps[k]?.map fun p => p * ((i + k + 1 : ℕ) : ℝ) := by
  induction ps generalizing i k with
  | nil => simp [SqrtPoly.derFrom]
  | cons p ps ih =>
    cases k with
    | zero => simp [SqrtPoly.derFrom]
    | succ k =>
      rw [SqrtPoly.derFrom, List.getElem?_cons_succ, ih, List.getElem?_cons_succ]
      congr 2
      funext q
      rw [show i + 1 + k + 1 = i + (k + 1) + 1 by ring]

theorem deriv_spec {p : List ℝ} (h0 : p ≠ []) (h : p.length ≤ 128) :
    ∃ d, deriv p = some d ∧ d.length = p.length ∧
      (∀ k, k + 1 < p.length → d[k]? = p[k + 1]?.map fun c => c * ((k + 1 : ℕ) : ℝ)) ∧
      ∀ n, 0 < n → n ≤ p.length → ∀ t, HasDerivAt (polyFn (p.take n)) (polyFn (d.take (n - 1)) t) t := by
  cases p with
  | nil => exact absurd rfl h0
  | cons c ps =>
    rw [List.length_cons] at h
    refine ⟨_, rfl, ?_, ?_, ?_⟩
    · rw [derivFrom_eq (by omega)]
      simp [derFrom_length]
    · intro k hk
      rw [List.length_cons] at hk
      rw [derivFrom_eq (by omega), List.getElem?_append_left (by rw [derFrom_length]; omega), derFrom_getElem?]
      simp
    · intro n h1 h2 t
      rw [List.length_cons] at h2
      obtain ⟨n, rfl⟩ : ∃ m, n = m + 1 := ⟨n - 1, by omega⟩
      rw [derivFrom_eq (by omega), Nat.add_sub_cancel, List.take_append_of_le_length (by rw [derFrom_length]; omega),
        derFrom_take, List.take_succ_cons]
      have := SqrtPoly.polyval_hasDerivAt (p := c :: ps.take n) (q := SqrtPoly.derFrom 0 (ps.take n)) rfl t
      rw [polyFn_polyval]
      rwa [show polyFn (c :: ps.take n) = SqrtPoly.polyval (c :: ps.take n) from funext (polyFn_polyval _)]

/-! ### Bisection -/

theorem tolerance_pos : 0 < tolerance := by unfold tolerance; positivity

theorem closeToZero_iff (a : ℝ) : CloseToZero a ↔ |a| ≤ tolerance := abs_le.symm

theorem bisect_spec {f : ℝ → ℝ} (hf : Continuous f) : ∀ (n : ℕ) (lo hi : ℝ),
    |hi - lo| ≤ tolerance * 2 ^ n → f lo ≤ 0 → 0 ≤ f hi →
    ∃ r, bisect f id lo hi = some r ∧ r ∈ uIcc lo hi ∧ (f lo < 0 → f r < 0) ∧
      ∃ z ∈ uIcc lo hi, f z = 0 ∧ |r - z| ≤ tolerance := by
  intro n
  have base : ∀ lo hi, |hi - lo| ≤ tolerance → f lo ≤ 0 → 0 ≤ f hi →
      ∃ r, bisect f id lo hi = some r ∧ r ∈ uIcc lo hi ∧ (f lo < 0 → f r < 0) ∧
      ∃ z ∈ uIcc lo hi, f z = 0 ∧ |r - z| ≤ tolerance := by
    intro lo hi h h1 h2
    refine ⟨lo, ?_, left_mem_uIcc, id, ?_⟩
    · rw [bisect, if_neg]
      rw [not_not, closeToZero_iff]
      simpa [sub_eq_add_neg] using h
    · obtain ⟨z, hz, hz0⟩ := intermediate_value_uIcc (a := lo) (b := hi) hf.continuousOn
        (show (0 : ℝ) ∈ uIcc (f lo) (f hi) from mem_uIcc.2 (Or.inl ⟨h1, h2⟩))
      refine ⟨z, hz, hz0, ?_⟩
      rw [abs_sub_comm]
      exact (abs_sub_left_of_mem_uIcc hz).trans h
  induction n with
  | zero =>
    intro lo hi h
    exact base lo hi (by simpa using h)
  | succ n ih =>
    intro lo hi h h1 h2
    by_cases hc : |hi - lo| ≤ tolerance
    · exact base lo hi hc h1 h2
    · have hmid : (hi + lo) / 2 ∈ uIcc lo hi := by
        rw [mem_uIcc]
        rcases le_total lo hi with h | h
        · left; constructor <;> linarith
        · right; constructor <;> linarith
      have e : bisect f id lo hi = if f ((hi + lo) / 2) < 0 then bisect f id ((hi + lo) / 2) hi
          else bisect f id lo ((hi + lo) / 2) := by
        rw [bisect, if_pos]
        · rfl
        · rw [closeToZero_iff]
          simpa [sub_eq_add_neg] using hc
      rw [pow_succ] at h
      rw [e]
      split
      · rename_i hm
        obtain ⟨r, g1, g2, g3, z, g4, g5, g6⟩ := ih ((hi + lo) / 2) hi (by
          rw [show hi - (hi + lo) / 2 = (hi - lo) / 2 by ring, abs_div]
          simp only [Nat.abs_ofNat]
          linarith) hm.le h2
        have hs := uIcc_subset_uIcc hmid (right_mem_uIcc (a := lo) (b := hi))
        exact ⟨r, g1, hs g2, fun _ => g3 hm, z, hs g4, g5, g6⟩
      · rename_i hm
        obtain ⟨r, g1, g2, g3, z, g4, g5, g6⟩ := ih lo ((hi + lo) / 2) (by
          rw [show (hi + lo) / 2 - lo = (hi - lo) / 2 by ring, abs_div]
          simp only [Nat.abs_ofNat]
          linarith) h1 (not_lt.1 hm)
        have hs := uIcc_subset_uIcc (left_mem_uIcc (a := lo) (b := hi)) hmid
        exact ⟨r, g1, hs g2, g3, z, hs g4, g5, g6⟩

theorem exists_halvings (w : ℝ) : ∃ n : ℕ, w ≤ tolerance * 2 ^ n := by
  obtain ⟨n, hn⟩ := pow_unbounded_of_one_lt (w / tolerance) (by norm_num : (1 : ℝ) < 2)
  refine ⟨n, ?_⟩
  rw [div_lt_iff₀ tolerance_pos] at hn
  linarith

/-- What `find_single_root` returns. -/
theorem findSingleRoot_spec {p : List ℝ} {n : ℕ} (h0 : 0 < n) (hn : n ≤ p.length) {a b : ℝ} (hab : a ≤ b) :
    (0 < polyFn (p.take n) a * polyFn (p.take n) b ∧ findSingleRoot p n a b = some none) ∨
    (polyFn (p.take n) a * polyFn (p.take n) b ≤ 0 ∧ ∃ r, findSingleRoot p n a b = some (some r) ∧
      r ∈ Icc a b ∧ (polyFn (p.take n) a < 0 ∨ polyFn (p.take n) b < 0 → polyFn (p.take n) r < 0) ∧
      ∃ z ∈ Icc a b, polyFn (p.take n) z = 0 ∧ |r - z| ≤ tolerance) := by
  have hv := value_eq h0 hn
  have hfun : (fun t => (value p n t).getD 0) = polyFn (p.take n) := by
    funext t
    rw [hv]
    rfl
  set F := polyFn (p.take n) with hF
  have hc : Continuous F := polyFn_continuous _
  have e : findSingleRoot p n a b = if F b * F a > 0 then some none else
      (if F a > F b then bisect F id b a else bisect F id a b).map some := by
    rw [findSingleRoot, hv, hv, hfun]
    simp only [Option.bind_eq_bind, Option.bind_some]
    split
    · rfl
    · split <;> rw [Option.map_eq_bind] <;> rfl
  rw [mul_comm (F a), e]
  by_cases hs : F b * F a > 0
  · exact Or.inl ⟨hs, if_pos hs⟩
  · right
    refine ⟨not_lt.1 hs, ?_⟩
    rw [if_neg hs]
    obtain ⟨k, hk⟩ := exists_halvings |b - a|
    by_cases hl : F a > F b
    · rw [if_pos hl]
      obtain ⟨r, g1, g2, g3, z, g4, g5, g6⟩ := bisect_spec hc k b a (by rwa [abs_sub_comm]) (by nlinarith) (by nlinarith)
      rw [uIcc_of_ge hab] at g2 g4
      exact ⟨r, by rw [g1]; rfl, g2, fun h => g3 (by rcases h with h | h <;> linarith), z, g4, g5, g6⟩
    · rw [if_neg hl]
      obtain ⟨r, g1, g2, g3, z, g4, g5, g6⟩ := bisect_spec hc k a b hk (by nlinarith) (by nlinarith)
      rw [uIcc_of_le hab] at g2 g4
      exact ⟨r, by rw [g1]; rfl, g2, fun h => g3 (by rcases h with h | h <;> linarith), z, g4, g5, g6⟩

/-! ### The bisection with `f64`s -/

theorem double_multiple {x : ℝ} (h : IsDouble x) {k : ℤ} (hx : (2 : ℝ) ^ (k + 52) ≤ x) : ∃ m : ℤ, x = m * (2 : ℝ) ^ k := by
  obtain ⟨m, e, hm, -, -, rfl⟩ := h
  have hm' : (m : ℝ) < 2 ^ 53 := by
    have := (abs_lt.1 hm).2
    exact_mod_cast this
  have h2 : (0 : ℝ) < 2 ^ e := by positivity
  have hlt : (2 : ℝ) ^ (k + 52) < 2 ^ (e + 53) := by
    calc (2 : ℝ) ^ (k + 52) ≤ m * 2 ^ e := hx
      _ < 2 ^ 53 * 2 ^ e := by nlinarith
      _ = 2 ^ (e + 53) := by rw [zpow_add₀ (by norm_num), mul_comm]; norm_num
  have hke : k ≤ e := by
    have := (zpow_lt_zpow_iff_right₀ (by norm_num : (1 : ℝ) < 2)).1 hlt
    omega
  refine ⟨m * 2 ^ (e - k).toNat, ?_⟩
  push_cast
  rw [mul_assoc, ← zpow_natCast, ← zpow_add₀ (by norm_num)]
  congr 2
  omega

theorem isDouble_zpow {k : ℤ} (h1 : -1074 ≤ k) (h2 : k ≤ 971) : IsDouble ((2 : ℝ) ^ k) :=
  ⟨1, k, by norm_num, h1, h2, by simp⟩

theorem isDouble_half {x : ℝ} (h : IsDouble x) {k : ℤ} (hk : -1075 ≤ k) (hx : (2 : ℝ) ^ (k + 54) ≤ x) : IsDouble (x / 2) := by
  obtain ⟨m, e, hm, h1, h2, rfl⟩ := h
  have hm' : (m : ℝ) < 2 ^ 53 := by
    have := (abs_lt.1 hm).2
    exact_mod_cast this
  have h2' : (0 : ℝ) < 2 ^ e := by positivity
  have hlt : (2 : ℝ) ^ (k + 54) < 2 ^ (e + 53) := by
    calc (2 : ℝ) ^ (k + 54) ≤ m * 2 ^ e := hx
      _ < 2 ^ 53 * 2 ^ e := by nlinarith
      _ = 2 ^ (e + 53) := by rw [zpow_add₀ (by norm_num), mul_comm]; norm_num
  have hke := (zpow_lt_zpow_iff_right₀ (by norm_num : (1 : ℝ) < 2)).1 hlt
  refine ⟨m, e - 1, hm, by omega, by omega, ?_⟩
  rw [zpow_sub₀ (by norm_num)]
  ring

/-- There are finitely many `f64`s. -/
theorem doubles_finite : {x : ℝ | IsDouble x}.Finite := by
  have : {x : ℝ | IsDouble x} ⊆ (fun q : ℤ × ℤ => (q.1 : ℝ) * (2 : ℝ) ^ q.2) ''
      ((Icc (-(2 ^ 53)) (2 ^ 53)) ×ˢ (Icc (-1074) 971)) := by
    rintro x ⟨m, e, hm, h1, h2, rfl⟩
    exact ⟨(m, e), ⟨⟨(abs_lt.1 hm).1.le, (abs_lt.1 hm).2.le⟩, h1, h2⟩, rfl⟩
  exact (((finite_Icc _ _).prod (finite_Icc _ _)).image _).subset this

/-- The least `f64`. -/
theorem least_double : IsDouble (-(2 ^ 53 - 1 : ℤ) * (2 : ℝ) ^ (971 : ℤ)) ∧
    ∀ x, IsDouble x → -(2 ^ 53 - 1 : ℤ) * (2 : ℝ) ^ (971 : ℤ) ≤ x := by
  refine ⟨⟨-(2 ^ 53 - 1), 971, by norm_num, by norm_num, by norm_num, by push_cast; rfl⟩, ?_⟩
  rintro x ⟨m, e, hm, h1, h2, rfl⟩
  have hle : (2 : ℝ) ^ e ≤ 2 ^ (971 : ℤ) := zpow_le_zpow_right₀ (by norm_num) h2
  have hm' : (-(2 ^ 53 - 1 : ℤ) : ℝ) ≤ m := by
    have := (abs_lt.1 hm).1
    exact_mod_cast (by omega : -(2 ^ 53 - 1 : ℤ) ≤ m)
  have hpos : (0 : ℝ) < 2 ^ e := by positivity
  calc -((2 ^ 53 - 1 : ℤ) : ℝ) * (2 : ℝ) ^ (971 : ℤ) ≤ -((2 ^ 53 - 1 : ℤ) : ℝ) * (2 : ℝ) ^ e :=
        mul_le_mul_of_nonpos_left hle (by norm_num)
    _ ≤ m * 2 ^ e := mul_le_mul_of_nonneg_right hm' hpos.le

/-- Rounding down is a rounding. -/
theorem exists_rounding : ∃ rd, Rounding rd := by
  set b : ℝ := -(2 ^ 53 - 1 : ℤ) * (2 : ℝ) ^ (971 : ℤ) with hb
  have hfin : ∀ x, {d | IsDouble d ∧ (d ≤ x ∨ d = b)}.Finite := fun x => doubles_finite.subset fun d h => h.1
  have hmem : ∀ x, sSup {d | IsDouble d ∧ (d ≤ x ∨ d = b)} ∈ {d | IsDouble d ∧ (d ≤ x ∨ d = b)} :=
    fun x => Set.Nonempty.csSup_mem ⟨b, least_double.1, Or.inr rfl⟩ (hfin x)
  refine ⟨fun x => sSup {d | IsDouble d ∧ (d ≤ x ∨ d = b)}, ?_, ?_, fun x _ => (hmem x).1⟩
  · intro x y hxy
    exact le_csSup (hfin y).bddAbove ⟨(hmem x).1, (hmem x).2.imp (fun h => h.trans hxy) id⟩
  · intro x hx
    refine le_antisymm ?_ (le_csSup (hfin x).bddAbove ⟨hx, Or.inl le_rfl⟩)
    rcases (hmem x).2 with h | h
    · exact h
    · exact h.le.trans (least_double.2 x hx)

theorem bisect_hangs {f rd : ℝ → ℝ} (hrd : Rounding rd) {low high : ℝ}
    (h1 : IsDouble low) (h2 : IsDouble high) (h3 : 16 ≤ low) (h4 : 16 ≤ high)
    (h5 : low ≤ 2 ^ 100) (h6 : high ≤ 2 ^ 100) (h7 : f low < 0) (h8 : 0 ≤ f high) :
    bisect f rd low high = none := by
  cases hc : bisect f rd low high with
  | none => rfl
  | some res =>
    refine (bisect.partial_correctness f rd (fun low high _ =>
      IsDouble low → IsDouble high → 16 ≤ low → 16 ≤ high → low ≤ 2 ^ 100 → high ≤ 2 ^ 100 → f low < 0 → 0 ≤ f high → False)
      ?_ low high res hc h1 h2 h3 h4 h5 h6 h7 h8).elim
    clear hc h1 h2 h3 h4 h5 h6 h7 h8 low high res
    intro g ih low high res h h1 h2 h3 h4 h5 h6 h7 h8
    have hne : low ≠ high := fun hh => by rw [hh] at h7; linarith
    -- the distance is at least `2^-48`
    obtain ⟨m1, e1⟩ := double_multiple h1 (k := -48) (by norm_num; exact h3)
    obtain ⟨m2, e2⟩ := double_multiple h2 (k := -48) (by norm_num; exact h4)
    have hm : m1 ≠ m2 := fun hh => hne (by rw [e1, e2, hh])
    have hp : (0 : ℝ) < 2 ^ (-48 : ℤ) := by positivity
    have hfar : ¬ CloseToZero (rd (high + -low)) := by
      have ht : tolerance < (2 : ℝ) ^ (-48 : ℤ) := by
        unfold tolerance
        norm_num
      intro hcl
      have hdiff : high + -low = (m2 - m1 : ℤ) * (2 : ℝ) ^ (-48 : ℤ) := by
        rw [e1, e2]; push_cast; ring
      rcases lt_or_gt_of_ne hm with hlt | hlt
      · have : (2 : ℝ) ^ (-48 : ℤ) ≤ high + -low := by
          rw [hdiff]
          have : (1 : ℝ) ≤ (m2 - m1 : ℤ) := by exact_mod_cast (by omega : 1 ≤ m2 - m1)
          nlinarith
        have := hrd.mono this
        rw [hrd.exact _ (isDouble_zpow (by norm_num) (by norm_num))] at this
        linarith [hcl.2]
      · have : high + -low ≤ -(2 : ℝ) ^ (-48 : ℤ) := by
          rw [hdiff]
          have : ((m2 - m1 : ℤ) : ℝ) ≤ -1 := by exact_mod_cast (by omega : m2 - m1 ≤ -1)
          nlinarith
        have := hrd.mono this
        rw [hrd.exact (-(2 : ℝ) ^ (-48 : ℤ)) ⟨-1, -48, by norm_num, by norm_num, by norm_num, by norm_num⟩] at this
        linarith [hcl.1]
    rw [if_pos hfar] at h
    -- the midpoint is again such a number
    have hs1 : 32 ≤ rd (high + low) := by
      have := hrd.mono (show (32 : ℝ) ≤ high + low by linarith)
      rwa [hrd.exact 32 ⟨1, 5, by norm_num, by norm_num, by norm_num, by norm_num⟩] at this
    have hs2 : rd (high + low) ≤ 2 ^ 101 := by
      have := hrd.mono (show high + low ≤ (2 : ℝ) ^ 101 by rw [pow_succ]; linarith)
      rwa [hrd.exact (2 ^ 101) ⟨1, 101, by norm_num, by norm_num, by norm_num, by norm_num⟩] at this
    have hd : IsDouble (rd (high + low)) := hrd.double _ (by
      rw [abs_of_nonneg (by linarith)]
      have h : (2 : ℝ) ^ 101 ≤ 2 ^ 1023 := pow_le_pow_right₀ (by norm_num) (by norm_num)
      have h' : high + low ≤ (2 : ℝ) ^ 101 := by rw [pow_succ]; linarith
      exact h'.trans h)
    have hmid : IsDouble (rd (high + low) / 2) := isDouble_half hd (k := -49) (by norm_num) (by norm_num; exact hs1)
    have hm16 : 16 ≤ rd (high + low) / 2 := by linarith
    have hmB : rd (high + low) / 2 ≤ 2 ^ 100 := by
      rw [pow_succ] at hs2
      linarith
    simp only at h
    split at h
    · rename_i hneg
      exact ih _ _ _ h hmid h2 hm16 h4 hmB h6 hneg h8
    · rename_i hneg
      exact ih _ _ _ h h1 hmid h3 hm16 h5 hmB h7 (not_lt.1 hneg)

/-! ### The loop over the extremes -/

/-- The difference of neighbouring roots. -/
def Apart (x y : ℝ) : Prop := x + tolerance < y

theorem pushRoot_spec {size : ℕ} {roots : List ℝ} {r : ℝ} (hlen : roots.length < size)
    (hr : ∀ x ∈ roots, x ≤ r) (hp : roots.Pairwise Apart) :
    ∃ new, pushRoot size roots r = some (roots ++ new) ∧ (new = [] ∨ new = [r]) ∧
      (roots ++ new).Pairwise Apart ∧ ∃ x ∈ roots ++ new, |x - r| ≤ tolerance := by
  rw [pushRoot]
  cases hl : roots.getLast? with
  | none =>
    rw [List.getLast?_eq_none_iff] at hl
    subst hl
    refine ⟨[r], ?_, Or.inr rfl, by simp, r, by simp, by simpa using tolerance_pos.le⟩
    rw [if_pos trivial, if_pos hlen]
  | some x =>
    have hx : x ∈ roots := List.mem_of_getLast? hl
    by_cases hc : CloseToZero (x + -r)
    · refine ⟨[], ?_, Or.inl rfl, by simpa using hp, x, by simpa using hx, ?_⟩
      · rw [if_neg (by simpa using hc), List.append_nil]
      · simpa [sub_eq_add_neg] using (closeToZero_iff _).1 hc
    · refine ⟨[r], ?_, Or.inr rfl, ?_, r, by simp, by simpa using tolerance_pos.le⟩
      · rw [if_pos hc, if_pos hlen]
      · rw [List.pairwise_append]
        refine ⟨hp, by simp, ?_⟩
        intro y hy z hz
        rw [List.mem_singleton] at hz
        subst hz
        have hyx : y ≤ x := by
          obtain ⟨l, rfl⟩ := List.getLast?_eq_some_iff.1 hl
          rw [List.mem_append, List.mem_singleton] at hy
          rcases hy with hy | rfl
          · have : y + tolerance < x := (List.pairwise_append.1 hp).2.2 y hy x (by simp)
            linarith [tolerance_pos]
          · exact le_rfl
        have hxr := hr x hx
        rw [closeToZero_iff, not_le, abs_of_nonpos (by linarith)] at hc
        show y + tolerance < z
        linarith

theorem rootLoop_spec {p : List ℝ} {n : ℕ} (h0 : 0 < n) (hn : n ≤ p.length) (stop : ℝ) :
    ∀ (nodes : List ℝ) (low : ℝ) (roots : List ℝ), (low :: nodes).Pairwise (· ≤ ·) → (∀ x ∈ nodes, x ≤ stop) →
      (∀ x ∈ roots, x ≤ low) → roots.Pairwise Apart → roots.length + nodes.length ≤ p.length →
      ∃ new, rootLoop p n stop nodes low roots = some (roots ++ new) ∧ new.length ≤ nodes.length ∧
        (∀ r ∈ new, r ∈ Icc low stop ∧ ∃ z ∈ Icc low stop, polyFn (p.take n) z = 0 ∧ |r - z| ≤ tolerance) ∧
        (roots ++ new).Pairwise Apart ∧
        (∀ t ∈ nodes, low < t → polyFn (p.take n) low * polyFn (p.take n) t ≤ 0 → roots ++ new ≠ []) ∧
        (∀ l1 u v l2, low :: nodes = l1 ++ u :: v :: l2 → u < v →
          polyFn (p.take n) u * polyFn (p.take n) v ≤ 0 →
          ∃ z ∈ Icc u v, polyFn (p.take n) z = 0 ∧ ∃ r ∈ roots ++ new, |r - z| ≤ 2 * tolerance) ∧
        ((∀ u ∈ low :: nodes, ∀ v ∈ low :: nodes, 0 < polyFn (p.take n) u * polyFn (p.take n) v) → new = []) := by
  intro nodes
  induction nodes with
  | nil =>
    intro low roots _ _ _ hp _
    refine ⟨[], by simp [rootLoop], by simp, by simp, by simpa using hp, by simp, ?_, fun _ => rfl⟩
    intro l1 u v l2 h
    have := congrArg List.length h
    simp only [List.length_cons, List.length_nil, List.length_append] at this
    omega
  | cons high rest ih =>
    intro low roots hs hb hr hp hlen
    set F := polyFn (p.take n) with hF
    have hlh : low ≤ high := List.rel_of_pairwise_cons hs (List.mem_cons_self ..)
    have hs' : (high :: rest).Pairwise (· ≤ ·) := hs.of_cons
    have hb' : ∀ x ∈ rest, x ≤ stop := fun x hx => hb x (List.mem_cons_of_mem _ hx)
    have hhs : high ≤ stop := hb high (List.mem_cons_self ..)
    rw [List.length_cons] at hlen
    -- the rest, from any list of roots
    have next : ∀ add : List ℝ, (add = [] ∨ ∃ r, add = [r]) → (∀ r ∈ add, r ∈ Icc low high ∧
        ∃ z ∈ Icc low high, F z = 0 ∧ |r - z| ≤ tolerance) → (roots ++ add).Pairwise Apart →
        (low < high → F low * F high ≤ 0 → ∃ z ∈ Icc low high, F z = 0 ∧ ∃ r ∈ roots ++ add, |r - z| ≤ 2 * tolerance) →
        (0 < F low * F high → add = []) →
        ∃ new, rootLoop p n stop rest high (roots ++ add) = some (roots ++ new) ∧ new.length ≤ rest.length + 1 ∧
          (∀ r ∈ new, r ∈ Icc low stop ∧ ∃ z ∈ Icc low stop, F z = 0 ∧ |r - z| ≤ tolerance) ∧
          (roots ++ new).Pairwise Apart ∧
          (∀ t ∈ high :: rest, low < t → F low * F t ≤ 0 → roots ++ new ≠ []) ∧
          (∀ l1 u v l2, low :: high :: rest = l1 ++ u :: v :: l2 → u < v → F u * F v ≤ 0 →
            ∃ z ∈ Icc u v, F z = 0 ∧ ∃ r ∈ roots ++ new, |r - z| ≤ 2 * tolerance) ∧
          ((∀ u ∈ low :: high :: rest, ∀ v ∈ low :: high :: rest, 0 < F u * F v) → new = []) := by
      intro add hadd hin hpw hfound hnone
      have hal : add.length ≤ 1 := by rcases hadd with rfl | ⟨r, rfl⟩ <;> simp
      obtain ⟨new, g1, g2, g3, g4, g5, g6, g7⟩ := ih high (roots ++ add) hs' hb' (by
          intro x hx
          rw [List.mem_append] at hx
          rcases hx with hx | hx
          · exact (hr x hx).trans hlh
          · exact (hin x hx).1.2) hpw (by rw [List.length_append]; omega)
      rw [List.append_assoc] at g1 g4 g5 g6
      refine ⟨add ++ new, g1, by rw [List.length_append]; omega, ?_, g4, ?_, ?_, ?_⟩
      · intro r hr'
        rw [List.mem_append] at hr'
        rcases hr' with hr' | hr'
        · obtain ⟨k1, z, k2, k3, k4⟩ := hin r hr'
          exact ⟨⟨k1.1, k1.2.trans hhs⟩, z, ⟨k2.1, k2.2.trans hhs⟩, k3, k4⟩
        · obtain ⟨k1, z, k2, k3, k4⟩ := g3 r hr'
          exact ⟨⟨hlh.trans k1.1, k1.2⟩, z, ⟨hlh.trans k2.1, k2.2⟩, k3, k4⟩
      · intro t ht hlt hle hnil
        have hempty : roots ++ add = [] := by
          rw [← List.append_assoc] at hnil
          exact (List.append_eq_nil_iff.1 hnil).1
        -- no change of sign in the first part
        have hno : low < high → 0 < F low * F high := by
          intro h
          by_contra hcon
          obtain ⟨z, _, _, r, hr', _⟩ := hfound h (not_lt.1 hcon)
          rw [hempty] at hr'
          simp at hr'
        rw [List.mem_cons] at ht
        rcases ht with rfl | ht
        · have := hno hlt
          linarith
        · have hht : high ≤ t := List.rel_of_pairwise_cons hs' ht
          rcases hlh.lt_or_eq with h | h
          · have hpos := hno h
            have hsign : F high * F t ≤ 0 := by
              by_contra hcon
              rw [not_le] at hcon
              have : 0 < (F low * F high) * (F high * F t) := mul_pos hpos hcon
              have h2 : 0 ≤ F high * F high := mul_self_nonneg _
              nlinarith
            rcases hht.lt_or_eq with h' | h'
            · exact g5 t ht h' hsign hnil
            · rw [← h'] at hle
              linarith
          · rw [← h] at g5
            exact g5 t ht hlt hle hnil
      · intro l1 u v l2 h huv hle
        cases l1 with
        | nil =>
          rw [List.nil_append, List.cons.injEq, List.cons.injEq] at h
          obtain ⟨rfl, rfl, -⟩ := h
          obtain ⟨z, k1, k2, r, k3, k4⟩ := hfound huv hle
          refine ⟨z, k1, k2, r, ?_, k4⟩
          rw [← List.append_assoc]
          exact List.mem_append_left _ k3
        | cons w l1 =>
          rw [List.cons_append, List.cons.injEq] at h
          exact g6 l1 u v l2 h.2 huv hle
      · intro hall
        rw [hnone (hall low (by simp) high (by simp)), g7 fun u hu v hv => hall u (List.mem_cons_of_mem _ hu) v
          (List.mem_cons_of_mem _ hv)]
        rfl
    rw [rootLoop, if_neg (not_lt.2 hhs), List.length_cons]
    by_cases hlt : high > low
    · rw [if_pos hlt]
      rcases findSingleRoot_spec h0 hn hlh with ⟨hpos, he⟩ | ⟨hneg, r, he, h1, -, z, h2, h3, h4⟩
      · rw [he]
        have := next [] (Or.inl rfl) (by simp) (by simpa using hp) (fun _ hle => absurd hpos (not_lt.2 hle)) (fun _ => rfl)
        rw [List.append_nil] at this
        exact this
      · rw [he]
        obtain ⟨add, k1, k2, k3, x, k4, k5⟩ := pushRoot_spec (size := p.length) (roots := roots) (r := r) (by omega)
          (fun x hx => (hr x hx).trans h1.1) hp
        simp only [Option.bind_eq_bind, Option.bind_some, k1]
        refine next add (k2.imp id fun h => ⟨r, h⟩) ?_ k3 ?_ (fun h => absurd h (not_lt.2 hneg))
        · intro r' hr'
          rcases k2 with rfl | rfl
          · simp at hr'
          · rw [List.mem_singleton] at hr'
            subst hr'
            exact ⟨h1, z, h2, h3, h4⟩
        · intro _ _
          refine ⟨z, h2, h3, x, k4, ?_⟩
          have := abs_add_le (x - r) (r - z)
          rw [sub_add_sub_cancel] at this
          linarith
    · rw [if_neg hlt]
      have := next [] (Or.inl rfl) (by simp) (by simpa using hp) (fun h => absurd h hlt) (fun _ => rfl)
      rw [List.append_nil] at this
      exact this

/-! ### find_roots -/

theorem reduce_spec (p : List ℝ) : ∀ n, n ≤ p.length → ∃ m, reduce p n = some m ∧ m ≤ n ∧
    (∀ t, polyFn (p.take n) t = polyFn (p.take m) t) ∧ (0 < m → ∃ c, p[m - 1]? = some c ∧ c ≠ 0) := by
  intro n
  induction n with
  | zero => exact fun _ => ⟨0, rfl, le_rfl, fun _ => rfl, by simp⟩
  | succ n ih =>
    intro hn
    obtain ⟨m, h1, h2, h3, h4⟩ := ih (by omega)
    have hg : p[n]? = some p[n] := List.getElem?_eq_getElem (by omega)
    rw [reduce, hg]
    simp only [Option.bind_eq_bind, Option.bind_some]
    by_cases hc : p[n] = 0
    · rw [if_pos hc]
      refine ⟨m, h1, by omega, fun t => ?_, h4⟩
      rw [List.take_add_one, hg, hc]
      show polyFn (p.take n ++ [0]) t = _
      rw [polyFn_append_zero, h3]
    · rw [if_neg hc]
      exact ⟨n + 1, rfl, le_rfl, fun _ => rfl, fun _ => ⟨_, hg, hc⟩⟩

/-- What is known about the result of `find_roots` for a polynomial `F` with `m` coefficients. -/
structure Found (F : ℝ → ℝ) (m : ℕ) (a b : ℝ) (rs : List ℝ) : Prop where
  len : rs.length ≤ m - 1
  near : ∀ r ∈ rs, r ∈ Icc a b ∧ ∃ z ∈ Icc a b, F z = 0 ∧ |r - z| ≤ tolerance
  apart : rs.Pairwise Apart
  sign : a < b → F a * F b < 0 → rs ≠ []

theorem findRootsAt_linear {p0 p1 a b : ℝ} (hp1 : p1 ≠ 0) (hab : a ≤ b) : Found (polyFn [p0, p1]) 2 a b
      (if (p0 + p1 * a) * (p0 + p1 * b) < 0 then [-(p0 / p1)] else []) := by
  have hF : ∀ t, polyFn [p0, p1] t = p0 + p1 * t := by
    intro t
    rw [polyFn_cons, polyFn_cons, polyFn_nil]
    ring
  have hz : polyFn [p0, p1] (-(p0 / p1)) = 0 := by
    rw [hF]
    field_simp
    ring
  split
  · rename_i hneg
    have hm : -(p0 / p1) ∈ Icc a b := by
      have e1 : p0 + p1 * a = p1 * (a - -(p0 / p1)) := by field_simp; ring
      have e2 : p0 + p1 * b = p1 * (b - -(p0 / p1)) := by field_simp; ring
      rw [e1, e2] at hneg
      set z := -(p0 / p1)
      have hsq : 0 < p1 * p1 := mul_self_pos.2 hp1
      have : (a - z) * (b - z) < 0 := by
        by_contra hcon
        have := mul_nonneg hsq.le (not_lt.1 hcon)
        nlinarith
      constructor
      · by_contra hcon
        nlinarith [mul_nonneg (by linarith : 0 ≤ a - z) (by linarith : 0 ≤ b - z)]
      · by_contra hcon
        nlinarith [mul_nonneg (by linarith : 0 ≤ z - a) (by linarith : 0 ≤ z - b)]
    refine ⟨by simp, ?_, by simp, by simp⟩
    intro r hr
    rw [List.mem_singleton] at hr
    subst hr
    exact ⟨hm, _, hm, hz, by simpa using tolerance_pos.le⟩
  · rename_i hneg
    refine ⟨by simp, by simp, by simp, ?_⟩
    intro _ h
    rw [hF, hF] at h
    exact absurd h hneg

theorem insertionSort_facts (l : List ℝ) : (l.insertionSort (· ≤ ·)).Pairwise (· ≤ ·) ∧
    (∀ x, x ∈ l.insertionSort (· ≤ ·) ↔ x ∈ l) ∧ (l.insertionSort (· ≤ ·)).length = l.length :=
  ⟨List.pairwise_insertionSort _ _, fun _ => (List.perm_insertionSort _ l).mem_iff, (List.perm_insertionSort _ l).length_eq⟩

theorem findRootsAt_spec : ∀ (depth : ℕ) (p : List ℝ) (n : ℕ) (a b : ℝ), n < depth → n ≤ p.length → p ≠ [] →
    p.length ≤ 128 → a ≤ b → ∃ m rs, reduce p n = some m ∧ findRootsAt depth p n a b = some rs ∧
      (m = 0 → rs = [0]) ∧ (0 < m → Found (polyFn (p.take n)) m a b rs) := by
  intro depth
  induction depth with
  | zero => intro p n a b h; omega
  | succ depth ih =>
    intro p n a b hd hn hne h128 hab
    obtain ⟨m, hm, hmn, hF, hlead⟩ := reduce_spec p n hn
    have hF' : polyFn (p.take n) = polyFn (p.take m) := funext hF
    rw [findRootsAt, hm]
    simp only [Option.bind_eq_bind, Option.bind_some]
    match m, hm, hmn, hF', hlead with
    | 0, hm, _, _, _ =>
      refine ⟨0, [0], rfl, ?_, fun _ => rfl, fun h => absurd h (lt_irrefl _)⟩
      simp [hne]
    | 1, hm, _, hF', hlead =>
      refine ⟨1, [], rfl, rfl, by simp, fun _ => ⟨by simp, by simp, by simp, ?_⟩⟩
      intro _ h
      obtain ⟨c, hc, hc0⟩ := hlead (by simp)
      have : p.take 1 = [c] := by
        cases p with
        | nil => simp at hne
        | cons x xs => simp at hc; simp [hc]
      rw [hF', this] at h
      simp only [polyFn_cons, polyFn_nil, mul_zero, add_zero] at h
      exact absurd h (not_lt.2 (mul_self_nonneg c))
    | 2, hm, hmn, hF', hlead =>
      obtain ⟨p1, hp1, hp10⟩ := hlead (by simp)
      match p, hp1, hn with
      | p0 :: q1 :: ps, hp1, _ =>
        have hq : q1 = p1 := by simpa using hp1
        subst hq
        refine ⟨2, if (p0 + q1 * a) * (p0 + q1 * b) < 0 then [-(p0 / q1)] else [], rfl, ?_, by simp, fun _ => ?_⟩
        rotate_left
        · rw [hF']
          exact findRootsAt_linear hp10 hab
        · simp only [List.getElem?_cons_zero, List.getElem?_cons_succ, Option.bind_some]
          split <;> rfl
      | [x], hp1, _ => simp at hp1
    | m + 3, hm, hmn, hF', hlead =>
      obtain ⟨d, hd1, hd2, hd3, -⟩ := deriv_spec hne h128
      obtain ⟨c, hc, hc0⟩ := hlead (by simp)
      -- the derivative has degree one less
      have hdl : d[m + 1]? = some (c * ((m + 2 : ℕ) : ℝ)) := by
        rw [hd3 (m + 1) (by omega)]
        rw [show m + 3 - 1 = m + 1 + 1 by omega] at hc
        rw [hc]
        rfl
      have hred : reduce d (m + 2) = some (m + 2) := by
        rw [reduce, hdl]
        simp only [Option.bind_eq_bind, Option.bind_some]
        rw [if_neg]
        exact mul_ne_zero hc0 (by positivity)
      obtain ⟨m', ext, k1, k2, -, k4⟩ := ih d (m + 2) a b (by omega) (by omega) (by
        intro h; rw [h] at hd2; simp at hd2; exact hne (List.length_eq_zero_iff.1 hd2.symm)) (by omega) hab
      rw [hred] at k1
      obtain rfl : m + 2 = m' := by simpa using k1
      have hfound := k4 (by omega)
      have hel := hfound.len
      have hsort := insertionSort_facts ext
      have hpw : (a :: (ext.insertionSort (· ≤ ·) ++ [b])).Pairwise (· ≤ ·) := by
        rw [List.pairwise_cons, List.pairwise_append]
        refine ⟨?_, hsort.1, by simp, ?_⟩
        · intro x hx
          rw [List.mem_append, List.mem_singleton, hsort.2.1] at hx
          rcases hx with hx | rfl
          · exact (hfound.near x hx).1.1
          · exact hab
        · intro x hx y hy
          rw [List.mem_singleton] at hy
          subst hy
          exact (hfound.near x ((hsort.2.1 x).1 hx)).1.2
      obtain ⟨rs, g1, g2, g3, g4, g5, -, -⟩ := rootLoop_spec (p := p) (n := m + 3) (by omega) (by omega) b
        (ext.insertionSort (· ≤ ·) ++ [b]) a [] hpw (by
          intro x hx
          rw [List.mem_append, List.mem_singleton, hsort.2.1] at hx
          rcases hx with hx | rfl
          · exact (hfound.near x hx).1.2
          · exact le_rfl) (by simp) (by simp) (by
          simp only [List.length_nil, List.length_append, hsort.2.2, List.length_singleton]
          omega)
      rw [List.nil_append] at g1 g4 g5
      refine ⟨m + 3, rs, rfl, ?_, by simp, fun _ => ?_⟩
      · rw [hd1]
        simp only [Option.bind_some, show m + 3 - 1 = m + 2 by omega, k2]
        rw [if_pos (by omega), g1]
      · rw [hF']
        refine ⟨?_, g3, g4, fun hlt h => g5 b (by simp) hlt h.le⟩
        simp only [List.length_append, hsort.2.2, List.length_singleton] at g2
        omega

end StepperPaths.Polynom
