import Verif.Model.IntegerCurve
import Mathlib.Tactic.Ring
import Mathlib.Tactic.Linarith
import Mathlib.Tactic.LinearCombination

/-! Algebra of `path_distance`: `pdv` is its value, and as a function of the flat
velocity it grows by twice `flatN` per step. -/

namespace StepperPaths.IntegerCurve

/-- Number of ticks needed to change the velocity by `d`. -/
def rt (a d : Int) : Int := (|d| + a - 1) / a

/-- Number of complete steps of size `a` between two velocities `d` apart. -/
def fl (a d : Int) : Int := if 0 ≤ d then d / a else (-d - 1) / a

/-- Correction to the distance for a ramp of height `d`. -/
def gg (a d : Int) : Int :=
  if 0 ≤ d then -(2 * d - a * rt a d) * rt a d + d - a * rt a d
  else (-2 * d - a * rt a d) * rt a d + d + a * rt a d

/-- Value of `path_distance`. -/
def pdv (v0 vn a T x : Int) : Int := 2 * x * T + gg a (x - v0) + gg a (x - vn)

/-- Number of ticks that change when the flat velocity goes from `x` to `x + 1`. -/
def flatN (v0 vn a T x : Int) : Int := T - 1 - fl a (x - v0) - fl a (x - vn)

theorem rt_nonneg {a : Int} (ha : 0 < a) (d : Int) : 0 ≤ rt a d := by
  unfold rt
  apply Int.ediv_nonneg _ ha.le
  have := abs_nonneg d
  omega

theorem rt_neg (a d : Int) : rt a (-d) = rt a d := by simp [rt]

theorem rt_eq {a d t : Int} (ha : 0 < a) (h1 : a * t - a < |d|) (h2 : |d| ≤ a * t) :
    rt a d = t := by
  unfold rt
  rw [Int.ediv_eq_iff_of_pos ha]
  constructor <;> linarith [mul_comm t a]

theorem rt_bounds {a : Int} (ha : 0 < a) (d : Int) :
    a * rt a d - a < |d| ∧ |d| ≤ a * rt a d := by
  unfold rt
  have h1 := Int.emod_nonneg (|d| + a - 1) ha.ne'
  have h2 := Int.emod_lt_of_pos (|d| + a - 1) ha
  have h3 := Int.mul_ediv_add_emod (|d| + a - 1) a
  constructor <;> linarith

theorem rt_le_iff {a d t : Int} (ha : 0 < a) : rt a d ≤ t ↔ |d| ≤ a * t := by
  obtain ⟨h1, h2⟩ := rt_bounds ha d
  constructor
  · intro h
    have := mul_le_mul_of_nonneg_left h ha.le
    linarith
  · intro h
    by_contra hc
    have := mul_le_mul_of_nonneg_left (show t + 1 ≤ rt a d by omega) ha.le
    linarith [mul_add a t 1]

theorem rt_zero {a : Int} (ha : 0 < a) : rt a 0 = 0 := rt_eq ha (by simpa) (by simp)

theorem fl_nonneg {a : Int} (ha : 0 < a) (d : Int) : 0 ≤ fl a d := by
  unfold fl
  split
  · exact Int.ediv_nonneg (by assumption) ha.le
  · exact Int.ediv_nonneg (by omega) ha.le

theorem fl_eq_of_nonneg {a d t : Int} (ha : 0 < a) (h : 0 ≤ d) (h1 : a * t ≤ d)
    (h2 : d < a * t + a) : fl a d = t := by
  unfold fl
  rw [if_pos h, Int.ediv_eq_iff_of_pos ha]
  constructor <;> linarith [mul_comm t a]

theorem fl_neg (a d : Int) : fl a (-d - 1) = fl a d := by
  unfold fl
  by_cases h : 0 ≤ d
  · rw [if_neg (by omega), if_pos h]; congr 1; omega
  · rw [if_pos (by omega), if_neg h]

theorem fl_bounds {a d : Int} (ha : 0 < a) (h : 0 ≤ d) :
    a * fl a d ≤ d ∧ d < a * fl a d + a := by
  unfold fl
  rw [if_pos h]
  have h1 := Int.emod_nonneg d ha.ne'
  have h2 := Int.emod_lt_of_pos d ha
  have h3 := Int.mul_ediv_add_emod d a
  constructor <;> linarith

theorem fl_bounds_neg {a d : Int} (ha : 0 < a) (h : d < 0) :
    a * fl a d ≤ -d - 1 ∧ -d - 1 < a * fl a d + a := by
  rw [← fl_neg]
  exact fl_bounds ha (by omega)

/-- Going up one more step from a nonnegative height. -/
theorem rt_succ {a d : Int} (ha : 0 < a) (h : 0 ≤ d) : rt a (d + 1) = fl a d + 1 := by
  obtain ⟨h1, h2⟩ := fl_bounds ha h
  apply rt_eq ha <;> rw [abs_of_nonneg (by omega)] <;> rw [mul_add] <;> omega

theorem rt_of_neg {a d : Int} (ha : 0 < a) (h : d < 0) : rt a d = fl a d + 1 := by
  rw [← rt_neg, ← fl_neg, ← rt_succ ha (by omega)]
  congr 1; omega

theorem rt_le_fl {a : Int} (ha : 0 < a) (d : Int) : rt a d ≤ fl a d + 1 := by
  by_cases h : 0 ≤ d
  · obtain ⟨h1, h2⟩ := fl_bounds ha h
    rw [rt_le_iff ha, abs_of_nonneg h, mul_add]
    omega
  · exact (rt_of_neg ha (by omega)).le

theorem gg_zero {a : Int} (ha : 0 < a) : gg a 0 = 0 := by
  simp [gg, rt_zero ha]

theorem gg_neg {a : Int} (ha : 0 < a) (d : Int) : gg a (-d) = - gg a d := by
  rcases lt_trichotomy d 0 with h | h | h
  · unfold gg
    rw [if_pos (by omega), if_neg (by omega), rt_neg]
    ring
  · subst h; simp [gg_zero ha]
  · unfold gg
    rw [if_neg (by omega), if_pos (by omega), rt_neg]
    ring

/-- Value of `gg` at `a t - e`. -/
theorem gg_eval {a t e : Int} (ha : 0 < a) (ht : 1 ≤ t) (he : 0 ≤ e) (hea : e ≤ a) :
    gg a (a * t - e) = -a * t * t + 2 * e * t - e := by
  have hat : a ≤ a * t := by nlinarith
  unfold gg
  rw [if_pos (by omega)]
  rcases hea.lt_or_eq with h | h
  · have : rt a (a * t - e) = t := by
      apply rt_eq ha <;> rw [abs_of_nonneg (by omega)] <;> omega
    rw [this]; ring
  · have : rt a (a * t - e) = t - 1 := by
      apply rt_eq ha <;> rw [abs_of_nonneg (by omega)] <;> rw [mul_sub] <;> omega
    rw [this]; subst h; ring

theorem gg_mul {a t : Int} (ha : 0 < a) (ht : 0 ≤ t) : gg a (a * t) = -a * t * t := by
  rcases ht.lt_or_eq with h | h
  · have := gg_eval (e := 0) ha (t := t) (by omega) le_rfl ha.le
    simp only [sub_zero] at this
    rw [this]; ring
  · subst h; simp [gg_zero ha]

theorem gg_succ_nonneg {a d : Int} (ha : 0 < a) (h : 0 ≤ d) :
    gg a (d + 1) = gg a d - (2 * fl a d + 1) := by
  obtain ⟨h1, h2⟩ := fl_bounds ha h
  have hf := fl_nonneg ha d
  have h3 : a * (fl a d + 1) = a * fl a d + a := by ring
  have g1 := gg_eval ha (t := fl a d + 1) (e := a * (fl a d + 1) - d - 1)
    (by omega) (by omega) (by omega)
  have g2 := gg_eval ha (t := fl a d + 1) (e := a * (fl a d + 1) - d)
    (by omega) (by omega) (by omega)
  rw [show a * (fl a d + 1) - (a * (fl a d + 1) - d - 1) = d + 1 by ring] at g1
  rw [show a * (fl a d + 1) - (a * (fl a d + 1) - d) = d by ring] at g2
  rw [g1, g2]; ring

theorem gg_succ {a : Int} (ha : 0 < a) (d : Int) :
    gg a (d + 1) = gg a d - (2 * fl a d + 1) := by
  by_cases h : 0 ≤ d
  · exact gg_succ_nonneg ha h
  · have := gg_succ_nonneg ha (d := -d - 1) (by omega)
    rw [fl_neg, show -d - 1 + 1 = -d by ring, gg_neg ha,
      show -d - 1 = -(d + 1) by ring, gg_neg ha] at this
    linarith

theorem pdv_succ {v0 vn a T : Int} (ha : 0 < a) (x : Int) :
    pdv v0 vn a T (x + 1) = pdv v0 vn a T x + 2 * flatN v0 vn a T x := by
  unfold pdv flatN
  rw [show x + 1 - v0 = x - v0 + 1 by ring, show x + 1 - vn = x - vn + 1 by ring,
    gg_succ ha, gg_succ ha]
  ring

theorem pdv_comm (v0 vn a T x : Int) : pdv v0 vn a T x = pdv vn v0 a T x := by
  unfold pdv; ring

theorem flatN_comm (v0 vn a T x : Int) : flatN v0 vn a T x = flatN vn v0 a T x := by
  unfold flatN; ring

theorem pdv_neg {a : Int} (ha : 0 < a) (v0 vn T x : Int) :
    pdv (-v0) (-vn) a T (-x) = - pdv v0 vn a T x := by
  unfold pdv
  rw [show -x - -v0 = -(x - v0) by ring, show -x - -vn = -(x - vn) by ring, gg_neg ha, gg_neg ha]
  ring

theorem flatN_neg (v0 vn a T x : Int) :
    flatN (-v0) (-vn) a T (-x - 1) = flatN v0 vn a T x := by
  unfold flatN
  rw [show -x - 1 - -v0 = -(x - v0) - 1 by ring, show -x - 1 - -vn = -(x - vn) - 1 by ring,
    fl_neg, fl_neg]

theorem divRemAway_spec {a : Int} (ha : 0 < a) (d : Int) :
    divRemAway d a = some (if 0 ≤ d then (rt a d, d - a * rt a d)
      else (-rt a d, d + a * rt a d)) := by
  unfold divRemAway cassert
  rw [if_pos ha]
  simp only [Option.bind_eq_bind, Option.bind_some]
  by_cases h : 0 ≤ d
  · rw [if_pos h]
    have hq : Int.tdiv d a = d / a := Int.tdiv_eq_ediv_of_nonneg h
    have hr : Int.tmod d a = d % a := Int.tmod_eq_emod_of_nonneg h
    have h1 := Int.emod_nonneg d ha.ne'
    have h2 := Int.emod_lt_of_pos d ha
    have h3 := Int.mul_ediv_add_emod d a
    rw [hq, hr]
    by_cases h0 : d % a = 0
    · have : rt a d = d / a := by apply rt_eq ha <;> rw [abs_of_nonneg h] <;> omega
      rw [if_pos h0, this]
      simp only [Option.pure_def, Option.some.injEq, Prod.mk.injEq, true_and]
      omega
    · have : rt a d = d / a + 1 := by
        apply rt_eq ha <;> rw [abs_of_nonneg h] <;> rw [mul_add] <;> omega
      rw [if_neg h0, if_pos (by omega), this]
      simp only [Option.pure_def, Option.some.injEq, Prod.mk.injEq, true_and]
      rw [mul_add]; omega
  · rw [if_neg h]
    obtain ⟨e, rfl⟩ : ∃ e, d = -e := ⟨-d, by ring⟩
    have he : 0 < e := by omega
    have hq : Int.tdiv (-e) a = -(e / a) := by
      rw [Int.neg_tdiv, Int.tdiv_eq_ediv_of_nonneg he.le]
    have hr : Int.tmod (-e) a = -(e % a) := by
      rw [Int.neg_tmod, Int.tmod_eq_emod_of_nonneg he.le]
    have h1 := Int.emod_nonneg e ha.ne'
    have h2 := Int.emod_lt_of_pos e ha
    have h3 := Int.mul_ediv_add_emod e a
    rw [hq, hr]
    by_cases h0 : e % a = 0
    · have : rt a (-e) = e / a := by
        rw [rt_neg]; apply rt_eq ha <;> rw [abs_of_nonneg he.le] <;> omega
      rw [if_pos (by omega), this]
      simp only [Option.pure_def, Option.some.injEq, Prod.mk.injEq, true_and]
      omega
    · have : rt a (-e) = e / a + 1 := by
        rw [rt_neg]
        apply rt_eq ha <;> rw [abs_of_nonneg he.le] <;> rw [mul_add] <;> omega
      rw [if_neg (by omega), if_neg (by omega), this]
      simp only [Option.pure_def, Option.some.injEq, Prod.mk.injEq]
      rw [mul_add]; omega

/-- What `acc_seq` and `path_distance` use of `div_rem_away`: the ramp time and
the (signed) rest. -/
theorem divRemAway_abs {a : Int} (ha : 0 < a) (d : Int) :
    ∃ q r, divRemAway d a = some (q, r) ∧ |q| = rt a d ∧
      r = (if 0 ≤ d then d - a * rt a d else d + a * rt a d) := by
  rw [divRemAway_spec ha]
  have := rt_nonneg ha d
  by_cases h : 0 ≤ d
  · simp only [if_pos h]
    exact ⟨_, _, rfl, abs_of_nonneg this, rfl⟩
  · simp only [if_neg h]
    exact ⟨_, _, rfl, by rw [abs_neg, abs_of_nonneg this], rfl⟩

theorem pathDistance_eq {a : Int} (ha : 0 < a) (v0 vn x T : Int) :
    pathDistance v0 vn x a T = some (pdv v0 vn a T x) := by
  obtain ⟨q1, r1, h1, h2, h3⟩ := divRemAway_abs ha (x - v0)
  obtain ⟨q4, r4, g1, g2, g3⟩ := divRemAway_abs ha (x - vn)
  unfold pathDistance
  rw [h1, g1]
  simp only [Option.bind_eq_bind, Option.bind_some, Option.pure_def, Option.some.injEq]
  rw [h2, g2, h3, g3]
  unfold pdv gg
  split <;> split <;> ring

end StepperPaths.IntegerCurve
