import Verif.Model.Solve
import Mathlib.Tactic.Ring
import Mathlib.Tactic.Linarith
import Mathlib.Tactic.Positivity
import Mathlib.Algebra.Order.Ring.Int

namespace StepperPaths.Solve

theorem tdiv_two_between {x y : Int} (h : ¬ y - x ≤ 1) :
    x < Int.tdiv (x + y) 2 ∧ Int.tdiv (x + y) 2 < y := by
  rcases Int.le_total 0 (x + y) with hs | hs
  · rw [Int.tdiv_eq_ediv_of_nonneg hs]; omega
  · have : (x + y).tdiv 2 = -((-(x + y)) / 2) := by
      rw [← Int.tdiv_eq_ediv_of_nonneg (by omega), Int.neg_tdiv]; omega
    omega

theorem sameSign_iff (a b : Int) : sameSign a b = true ↔ (0 ≤ a ↔ 0 ≤ b) := by
  unfold sameSign
  split <;> simp <;> omega

/-- What `find_root` promises about a returned point. -/
def IsBoundary (a b c min max x : Int) : Prop :=
  min ≤ x ∧ x ≤ max ∧ 0 ≤ sqpoly a b c x ∧
    (sqpoly a b c x = 0 ∨ (x + 1 ≤ max ∧ sqpoly a b c (x + 1) < 0) ∨
      (min ≤ x - 1 ∧ sqpoly a b c (x - 1) < 0))

theorem findRootLoop_spec (a b c minx maxx miny maxy : Int) (hlt : minx < maxx)
    (hmin : miny = sqpoly a b c minx) (hmax : maxy = sqpoly a b c maxx)
    (hs : ¬ (0 ≤ miny ↔ 0 ≤ maxy)) (lo hi : Int) (hlo : lo ≤ minx) (hhi : maxx ≤ hi) :
    IsBoundary a b c lo hi (findRootLoop a b c minx maxx miny maxy) := by
  fun_induction findRootLoop a b c minx maxx miny maxy with
  | case1 minx maxx maxy => exact ⟨hlo, by omega, by omega, Or.inl hmin.symm⟩
  | case2 minx maxx miny h => exact ⟨by omega, hhi, by omega, Or.inl hmax.symm⟩
  | case3 minx maxx miny maxy h1 h2 h3 h4 =>
    refine ⟨by omega, hhi, by omega, Or.inr (Or.inr ⟨by omega, ?_⟩)⟩
    have : maxx - 1 = minx := by omega
    rw [this]; omega
  | case4 minx maxx miny maxy h1 h2 h3 h4 =>
    refine ⟨hlo, by omega, by omega, Or.inr (Or.inl ⟨by omega, ?_⟩)⟩
    have : minx + 1 = maxx := by omega
    rw [this]; omega
  | case5 minx maxx miny maxy h1 h2 h3 midx midy h4 ih =>
    have hm := tdiv_two_between h3
    rw [sameSign_iff] at h4
    exact ih hm.1 hmin rfl (by tauto) hlo (by omega)
  | case6 minx maxx miny maxy h1 h2 h3 midx midy h4 ih =>
    have hm := tdiv_two_between h3
    rw [sameSign_iff] at h4
    exact ih hm.2 rfl hmax (by tauto) (by omega) hhi

theorem findRoot_some {a b c min max x : Int} (h : min ≤ max)
    (e : findRoot a b c min max = some x) : IsBoundary a b c min max x := by
  unfold findRoot at e
  simp only [] at e
  split at e
  · cases e; exact ⟨le_rfl, h, by omega, Or.inl (by assumption)⟩
  · split at e
    · cases e; exact ⟨h, le_rfl, by omega, Or.inl (by assumption)⟩
    · split at e
      · cases e
      · rename_i h1 h2 h3
        cases e
        rw [sameSign_iff] at h3
        have : min ≠ max := by rintro rfl; exact h3 Iff.rfl
        exact findRootLoop_spec a b c min max _ _ (by omega) rfl rfl h3 min max le_rfl le_rfl

theorem findRoot_none_iff (a b c min max : Int) :
    findRoot a b c min max = none ↔
      sqpoly a b c min ≠ 0 ∧ sqpoly a b c max ≠ 0 ∧
        (0 ≤ sqpoly a b c min ↔ 0 ≤ sqpoly a b c max) := by
  unfold findRoot
  simp only []
  split
  · simp [*]
  · split
    · simp [*]
    · split
      · rename_i h1 h2 h3
        rw [sameSign_iff] at h3
        simp [h1, h2, h3]
      · rename_i h1 h2 h3
        rw [sameSign_iff] at h3
        simp only [reduceCtorEq, false_iff]
        tauto

/-! ### Convexity -/

theorem sqpoly_chord (a b c x y z : Int) :
    (z - x) * sqpoly a b c y =
      (z - y) * sqpoly a b c x + (y - x) * sqpoly a b c z - a * (y - x) * (z - y) * (z - x) := by
  unfold sqpoly; ring

theorem sqpoly_neg_between {a b c x y z : Int} (ha : 0 < a) (hxy : x < y) (hyz : y < z)
    (hx : sqpoly a b c x ≤ 0) (hz : sqpoly a b c z ≤ 0) : sqpoly a b c y < 0 := by
  have h := sqpoly_chord a b c x y z
  by_contra hn
  have h1 : 0 ≤ (z - x) * sqpoly a b c y := mul_nonneg (by omega) (by omega)
  have h2 : (z - y) * sqpoly a b c x ≤ 0 := mul_nonpos_of_nonneg_of_nonpos (by omega) hx
  have h3 : (y - x) * sqpoly a b c z ≤ 0 := mul_nonpos_of_nonneg_of_nonpos (by omega) hz
  have h4 : 0 < a * (y - x) * (z - y) * (z - x) := by
    have : 0 < y - x := by omega
    have : 0 < z - y := by omega
    have : 0 < z - x := by omega
    positivity
  omega

theorem sqpoly_sub (a b c x y : Int) :
    sqpoly a b c x - sqpoly a b c y = (x - y) * (a * (x + y) + b) := by
  unfold sqpoly; ring

/-- The boundary found left of a point with a negative value. -/
theorem left_boundary {a b c lo m x : Int} (ha : 0 < a) (hm : sqpoly a b c m < 0)
    (h : IsBoundary a b c lo m x) :
    x < m ∧ 0 ≤ sqpoly a b c x ∧ (∀ y, x < y → y ≤ m → sqpoly a b c y < 0) ∧
      (∀ y, y ≤ x → 0 ≤ sqpoly a b c y) := by
  obtain ⟨h1, h2, h3, h4⟩ := h
  have hne : x ≠ m := by rintro rfl; omega
  have hxm : x < m := by omega
  have hout : ∀ y, y ≤ x → 0 ≤ sqpoly a b c y := by
    intro y hy
    by_contra hn
    rcases eq_or_lt_of_le hy with rfl | hy
    · omega
    · have := sqpoly_neg_between (a := a) (b := b) (c := c) ha hy hxm (by omega) hm.le
      omega
  refine ⟨hxm, h3, ?_, hout⟩
  intro y hxy hym
  rcases eq_or_lt_of_le hym with rfl | hym
  · exact hm
  rcases h4 with h4 | ⟨_, h4⟩ | ⟨_, h4⟩
  · exact sqpoly_neg_between ha hxy hym h4.le hm.le
  · rcases eq_or_lt_of_le (show x + 1 ≤ y by omega) with rfl | h5
    · exact h4
    · exact sqpoly_neg_between ha h5 hym h4.le hm.le
  · have := hout (x - 1) (by omega); omega

/-- The boundary found right of a point with a negative value. -/
theorem right_boundary {a b c m hi x : Int} (ha : 0 < a) (hm : sqpoly a b c m < 0)
    (h : IsBoundary a b c m hi x) :
    m < x ∧ 0 ≤ sqpoly a b c x ∧ (∀ y, m ≤ y → y < x → sqpoly a b c y < 0) ∧
      (∀ y, x ≤ y → 0 ≤ sqpoly a b c y) := by
  obtain ⟨h1, h2, h3, h4⟩ := h
  have hne : x ≠ m := by rintro rfl; omega
  have hxm : m < x := by omega
  have hout : ∀ y, x ≤ y → 0 ≤ sqpoly a b c y := by
    intro y hy
    by_contra hn
    rcases eq_or_lt_of_le hy with rfl | hy
    · omega
    · have := sqpoly_neg_between (a := a) (b := b) (c := c) ha hxm hy hm.le (by omega)
      omega
  refine ⟨hxm, h3, ?_, hout⟩
  intro y hmy hyx
  rcases eq_or_lt_of_le hmy with rfl | hmy
  · exact hm
  rcases h4 with h4 | ⟨_, h4⟩ | ⟨_, h4⟩
  · exact sqpoly_neg_between ha hmy hyx hm.le h4.le
  · have := hout (x + 1) (by omega); omega
  · rcases eq_or_lt_of_le (show y ≤ x - 1 by omega) with rfl | h5
    · exact h4
    · exact sqpoly_neg_between ha hmy h5 hm.le h4.le

/-! ### Termination of the doubling loop -/

theorem growLimit_of_bound (a b c xmin N : Int) (hN : ∀ l, N ≤ l → 0 < sqpoly a b c (xmin + l))
    (limit : Int) (hl : 1 ≤ limit) :
    ∃ l, growLimit a b c xmin limit = some l ∧ limit ≤ l ∧ 0 < sqpoly a b c (xmin + l) ∧
      (l = limit ∨ l ≤ 2 * N) := by
  generalize hn : (N - limit).toNat = n
  induction n using Nat.strong_induction_on generalizing limit with
  | _ n ih =>
    rw [growLimit]
    by_cases hp : sqpoly a b c (xmin + limit) ≤ 0
    · rw [if_pos hp]
      have hlt : limit < N := by
        by_contra hc
        have := hN limit (by omega)
        omega
      obtain ⟨l, e, h1, h2, h3⟩ := ih ((N - limit * 2).toNat) (by omega) (limit * 2) (by omega) rfl
      refine ⟨l, e, by omega, h2, Or.inr ?_⟩
      rcases h3 with h3 | h3 <;> omega
    · rw [if_neg hp]
      exact ⟨limit, rfl, le_rfl, by omega, Or.inl rfl⟩

/-- An explicit point beyond which the polynomial is positive. -/
theorem sqpoly_pos_far (a b c xmin : Int) (ha : 0 < a) (l : Int)
    (hl : |xmin| + |b| + |c| + 1 ≤ l) : 0 < sqpoly a b c (xmin + l) := by
  have h1 := neg_abs_le xmin
  have h2 := neg_abs_le b
  have h3 := le_abs_self c
  have h4 := abs_nonneg b
  have h5 := abs_nonneg c
  have hx : |b| + |c| + 1 ≤ xmin + l := by omega
  generalize xmin + l = x at hx
  unfold sqpoly
  have hx0 : 0 ≤ x := by omega
  have e1 : x * x ≤ a * x * x := by
    have : 0 ≤ (a - 1) * (x * x) := mul_nonneg (by omega) (mul_nonneg hx0 hx0)
    nlinarith
  have e2 : -|b| * x ≤ b * x := mul_le_mul_of_nonneg_right h2 hx0
  have e3 : (|c| + 1) * x ≤ (x - |b|) * x := mul_le_mul_of_nonneg_right (by omega) hx0
  have e4 : (|c| + 1) * 1 ≤ (|c| + 1) * x := mul_le_mul_of_nonneg_left (by omega) (by omega)
  nlinarith

/-- Left of the vertex the polynomial at distance `l + 1` exceeds its value at
distance `l` to the right. -/
theorem sqpoly_mirror (a b c xmin l : Int) (hl : 0 ≤ l)
    (hx : |2 * a * xmin + b| ≤ a) :
    sqpoly a b c (xmin + l) ≤ sqpoly a b c (xmin - (l + 1)) := by
  have h := sqpoly_sub a b c (xmin - (l + 1)) (xmin + l)
  have h2 : (xmin - (l + 1) - (xmin + l)) * (a * (xmin - (l + 1) + (xmin + l)) + b)
      = (2 * l + 1) * (a - (2 * a * xmin + b)) := by ring
  have h3 := (abs_le.1 hx).2
  have : 0 ≤ (2 * l + 1) * (a - (2 * a * xmin + b)) := mul_nonneg (by omega) (by omega)
  omega

/-- Further right of `xmin` the polynomial grows. -/
theorem sqpoly_mono_right (a b c xmin l : Int) (ha : 0 < a) (hl : 0 ≤ l)
    (hx : |2 * a * xmin + b| ≤ a) :
    sqpoly a b c (xmin + l) ≤ sqpoly a b c (xmin + (l + 1)) := by
  have h := sqpoly_sub a b c (xmin + (l + 1)) (xmin + l)
  have h2 : (xmin + (l + 1) - (xmin + l)) * (a * (xmin + (l + 1) + (xmin + l)) + b)
      = 2 * (a * l) + a + (2 * a * xmin + b) := by ring
  have h3 := (abs_le.1 hx).1
  have : 0 ≤ a * l := mul_nonneg ha.le hl
  omega

/-- The search for both roots around a rounded vertex with a negative value. -/
theorem both_roots (a b c xmin : Int) (ha : 0 < a) (hx : |2 * a * xmin + b| ≤ a)
    (hy : sqpoly a b c xmin < 0) :
    ∃ limit x1 x2, growLimit a b c xmin 16 = some limit ∧
      findRoot a b c (xmin - (limit + 1)) xmin = some x1 ∧
      findRoot a b c xmin (xmin + (limit + 1)) = some x2 ∧
      x1 < xmin ∧ xmin < x2 ∧ (∀ y, 0 ≤ sqpoly a b c y ↔ y ≤ x1 ∨ x2 ≤ y) := by
  obtain ⟨l, e, hl, hp, _⟩ := growLimit_of_bound a b c xmin (|xmin| + |b| + |c| + 1)
    (fun l hl => sqpoly_pos_far a b c xmin ha l hl) 16 (by omega)
  have hm := sqpoly_mirror a b c xmin l (by omega) hx
  have hr := sqpoly_mono_right a b c xmin l ha (by omega) hx
  have e1 : ∃ x1, findRoot a b c (xmin - (l + 1)) xmin = some x1 := by
    cases h : findRoot a b c (xmin - (l + 1)) xmin with
    | some x => exact ⟨x, rfl⟩
    | none => rw [findRoot_none_iff] at h; omega
  have e2 : ∃ x2, findRoot a b c xmin (xmin + (l + 1)) = some x2 := by
    cases h : findRoot a b c xmin (xmin + (l + 1)) with
    | some x => exact ⟨x, rfl⟩
    | none => rw [findRoot_none_iff] at h; omega
  obtain ⟨x1, e1⟩ := e1
  obtain ⟨x2, e2⟩ := e2
  obtain ⟨a1, a2, a3, a4⟩ := left_boundary ha hy (findRoot_some (by omega) e1)
  obtain ⟨b1, b2, b3, b4⟩ := right_boundary ha hy (findRoot_some (by omega) e2)
  refine ⟨l, x1, x2, e, e1, e2, a1, b1, fun y => ⟨?_, ?_⟩⟩
  · intro h
    by_contra hn
    rcases Int.le_total y xmin with hy | hy
    · have := a3 y (by omega) hy; omega
    · have := b3 y hy (by omega); omega
  · rintro (h | h)
    · exact a4 y h
    · exact b4 y h

/-- The rounding of `-b / (2a)` to the nearest integer. -/
theorem round_vertex (a b : Int) (ha : 0 < a) :
    ∃ x, roundVertex a b = some x ∧ |2 * a * x + b| ≤ a := by
  have h2a : (2 * a) ≠ 0 := by omega
  by_cases hb : b ≥ 0
  · refine ⟨-((b + a).tdiv (2 * a)), by simp [roundVertex, hb, cdiv, h2a], ?_⟩
    rw [Int.tdiv_eq_ediv_of_nonneg (by omega)]
    have h1 := Int.mul_ediv_add_emod (b + a) (2 * a)
    have h2 := Int.emod_nonneg (b + a) h2a
    have h3 := Int.emod_lt_of_pos (b + a) (show 0 < 2 * a by omega)
    rw [abs_le]
    have : 2 * a * -((b + a) / (2 * a)) = -(2 * a * ((b + a) / (2 * a))) := by ring
    omega
  · refine ⟨(-b + a).tdiv (2 * a), by simp [roundVertex, hb, cdiv, h2a], ?_⟩
    rw [Int.tdiv_eq_ediv_of_nonneg (by omega)]
    have h1 := Int.mul_ediv_add_emod (-b + a) (2 * a)
    have h2 := Int.emod_nonneg (-b + a) h2a
    have h3 := Int.emod_lt_of_pos (-b + a) (show 0 < 2 * a by omega)
    rw [abs_le]
    omega

theorem sqpoly_disc (a b c x : Int) :
    4 * a * sqpoly a b c x = (2 * a * x + b) * (2 * a * x + b) - (b * b + 4 * a * c) := by
  unfold sqpoly; ring

/-- If the value at the rounded vertex is non-negative all values are. -/
theorem all_nonneg (a b c xmin : Int) (ha : 0 < a) (hx : |2 * a * xmin + b| ≤ a)
    (hy : 0 ≤ sqpoly a b c xmin) (y : Int) : 0 ≤ sqpoly a b c y := by
  have h := sqpoly_sub a b c y xmin
  have e : (y - xmin) * (a * (y + xmin) + b)
      = (y - xmin) * (a * (y - xmin) + (2 * a * xmin + b)) := by ring
  obtain ⟨h1, h2⟩ := abs_le.1 hx
  have : 0 ≤ (y - xmin) * (a * (y - xmin) + (2 * a * xmin + b)) := by
    rcases lt_trichotomy y xmin with hlt | rfl | hgt
    · apply mul_nonneg_of_nonpos_of_nonpos (by omega)
      have : a * (y - xmin) ≤ a * (-1) := mul_le_mul_of_nonneg_left (by omega) ha.le
      omega
    · simp
    · apply mul_nonneg (by omega)
      have : a * 1 ≤ a * (y - xmin) := mul_le_mul_of_nonneg_left (by omega) ha.le
      omega
  omega

theorem findRoots_spec (a b c : Int) (ha : 0 < a) :
    (b * b + 4 * a * c < 0 → findRoots a b c = some none) ∧
    (0 ≤ b * b + 4 * a * c → ∃ x1 x2, findRoots a b c = some (some (x1, x2)) ∧ x1 ≤ x2 ∧
      (∀ y, y ≤ x1 ∨ x2 ≤ y → 0 ≤ sqpoly a b c y) ∧
      (∀ y, x1 < y → y < x2 → sqpoly a b c y < 0)) := by
  constructor
  · intro h
    unfold findRoots
    simp only []
    rw [if_pos h]
    rfl
  · intro h
    obtain ⟨x, hx, hr⟩ := round_vertex a b ha
    unfold findRoots
    simp only [bind, Option.bind, pure]
    rw [if_neg (by omega), hx]
    simp only []
    by_cases h0 : b * b + 4 * a * c = 0 ∧ sqpoly a b c x = 0
    · rw [if_pos h0]
      exact ⟨x, x, rfl, le_rfl, fun y _ => all_nonneg a b c x ha hr (by omega) y,
        fun y _ _ => by omega⟩
    · rw [if_neg h0]
      by_cases hy : sqpoly a b c x ≥ 0
      · rw [if_pos hy]
        split
        · exact ⟨x - 1, x, rfl, by omega, fun y _ => all_nonneg a b c x ha hr hy y,
            fun y _ _ => by omega⟩
        · exact ⟨x, x + 1, rfl, by omega, fun y _ => all_nonneg a b c x ha hr hy y,
            fun y _ _ => by omega⟩
      · rw [if_neg hy]
        obtain ⟨l, x1, x2, e, e1, e2, h1, h2, h3⟩ := both_roots a b c x ha hr (by omega)
        rw [e]
        simp only [e1, e2]
        refine ⟨x1, x2, rfl, by omega, fun y hy => (h3 y).2 hy, fun y ha hb => ?_⟩
        by_contra hn
        have := (h3 y).1 (by omega)
        omega

end StepperPaths.Solve
