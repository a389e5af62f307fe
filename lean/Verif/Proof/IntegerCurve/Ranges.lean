import Verif.Proof.IntegerCurve.Adjust
import Verif.Proof.MultiRange
import Verif.Proof.Solve

/-! The sets of durations. -/

namespace StepperPaths.IntegerCurve

open Solve Spec MultiRange

/-- The polynomial of `max_acceleration_curve`. -/
def accPoly (ds v0 vn a T : Int) : Int :=
  a * a * T * T + 2 * a * (v0 + vn) * T - ((v0 - vn) * (v0 - vn) + a * a + 2 * a * ds)

theorem accPoly_eq (ds v0 vn a T : Int) :
    sqpoly (a * a) (2 * a * (v0 + vn)) ((v0 - vn) * (v0 - vn) + a * (a + 2 * ds)) T
      = accPoly ds v0 vn a T := by
  unfold sqpoly accPoly; ring

theorem accPoly_swap (ds v0 vn a T : Int) : accPoly ds vn v0 a T = accPoly ds v0 vn a T := by
  unfold accPoly; ring

/-- Least time to change the velocity, at least one tick. -/
def tMin (v0 vn a : Int) : Int := if v0 = vn then 1 else rt a (v0 - vn)

theorem tMin_pos {v0 vn a : Int} (ha : 0 < a) : 1 ≤ tMin v0 vn a := by
  unfold tMin
  split
  · exact le_rfl
  · exact rt_pos ha (by omega)

theorem tMin_spec {v0 vn a T : Int} (ha : 0 < a) :
    tMin v0 vn a ≤ T ↔ 1 ≤ T ∧ |v0 - vn| ≤ a * T := by
  unfold tMin
  split
  · rename_i h
    subst h
    constructor
    · intro h; exact ⟨h, by simp; positivity⟩
    · exact fun h => h.1
  · rename_i h
    rw [rt_le_iff ha]
    constructor
    · intro h2
      refine ⟨?_, h2⟩
      by_contra hc
      have := mul_le_mul_of_nonneg_left (show T ≤ 0 by omega) ha.le
      have := abs_pos.2 (show v0 - vn ≠ 0 by omega)
      omega
    · exact fun h => h.2

/-- The polynomial is non-negative: there is a peak reaching the distance. -/
theorem hiOK_of_poly_le {ds v0 vn a T : Int} (ha : 0 < a) (hle : v0 ≤ vn)
    (hD : vn - v0 ≤ a * T) (hp : 0 ≤ accPoly ds v0 vn a T) : HiOK v0 vn a T ds := by
  have ha2 : 0 < 2 * a := by omega
  have haT : 0 ≤ a * T := by omega
  obtain ⟨tl, r, hr0, hra, htl, hsplit⟩ : ∃ tl r, 0 ≤ r ∧ r < 2 * a ∧ 0 ≤ tl ∧
      a * T + (vn - v0) = 2 * a * tl + r := by
    refine ⟨(a * T + (vn - v0)) / (2 * a), (a * T + (vn - v0)) % (2 * a),
      Int.emod_nonneg _ ha2.ne', Int.emod_lt_of_pos _ ha2, Int.ediv_nonneg (by omega) ha2.le, ?_⟩
    rw [Int.mul_ediv_add_emod]
  obtain ⟨h, hh⟩ : ∃ h, T = tl + h := ⟨T - tl, by ring⟩
  subst hh
  have hvn : vn = v0 + (a * tl - a * h + r) := by linarith
  subst hvn
  have hah : 0 ≤ 2 * (a * h) - r := by
    have : a * (tl + h) = a * tl + a * h := by ring
    omega
  have hh0 : 0 ≤ h := by
    by_contra hc
    have := mul_le_mul_of_nonneg_left (show h ≤ -1 by omega) ha.le
    omega
  have hhr : h = 0 → r = 0 := by
    intro hz; subst hz; simp at hah; omega
  have hatl : 0 ≤ a * tl := mul_nonneg ha.le htl
  have fin : ∀ p : Int, 2 * a * (p - ds) = accPoly ds v0 (v0 + (a * tl - a * h + r)) a (tl + h)
      + (a - r) * (a - r) → ds ≤ p := by
    intro p hpe
    by_contra hc
    have h1 : 0 ≤ 2 * a * (p - ds) := by
      rw [hpe]
      have := mul_self_nonneg (a - r)
      omega
    have h2 : 2 * a * (p - ds) < 0 := by
      apply mul_neg_of_pos_of_neg <;> omega
    omega
  by_cases hra' : r ≤ a
  · refine ⟨v0 + a * tl, by omega, ?_, ?_, ?_⟩
    · rcases (show h = 0 ∨ 1 ≤ h by omega) with hz | hz
      · have := hhr hz; subst hz; simp; omega
      · have := mul_le_mul_of_nonneg_left hz ha.le
        omega
    · have r1 := rt_le_of (t := tl) (d := v0 + a * tl - v0) ha (by omega) (by omega)
      rcases (show h = 0 ∨ 1 ≤ h by omega) with hz | hz
      · have hr := hhr hz
        subst hz hr
        have r2 := rt_le_of (t := 0) (d := v0 + a * tl - (v0 + (a * tl - a * 0 + 0))) ha
          (by simp) (by simp)
        omega
      · have := mul_le_mul_of_nonneg_left hz ha.le
        have r2 := rt_le_of (t := h) (d := v0 + a * tl - (v0 + (a * tl - a * h + r))) ha
          (by omega) (by omega)
        omega
    · apply fin
      unfold pdv
      rw [show v0 + a * tl - v0 = a * tl by ring, gg_mul ha htl,
        show v0 + a * tl - (v0 + (a * tl - a * h + r)) = a * h - r by ring]
      have hg : gg a (a * h - r) = -a * h * h + 2 * r * h - r := by
        rcases (show h = 0 ∨ 1 ≤ h by omega) with hz | hz
        · have hr := hhr hz
          subst hz hr
          simp [gg_zero ha]
        · exact gg_eval ha hz hr0 hra'
      rw [hg]
      unfold accPoly; ring
  · have hh1 : 1 ≤ h := by
      by_contra hc
      have := hhr (by omega)
      omega
    have hah1 := mul_le_mul_of_nonneg_left hh1 ha.le
    have e1 : a * (tl + 1) = a * tl + a := by ring
    have e2 : a * (h - 1) = a * h - a := by ring
    refine ⟨v0 + a * tl + (r - a), by omega, by omega, ?_, ?_⟩
    · have r1 := rt_le_of (t := tl + 1) (d := v0 + a * tl + (r - a) - v0) ha (by omega) (by omega)
      have r2 := rt_le_of (t := h - 1)
        (d := v0 + a * tl + (r - a) - (v0 + (a * tl - a * h + r))) ha (by omega) (by omega)
      omega
    · apply fin
      unfold pdv
      rw [show v0 + a * tl + (r - a) - v0 = a * (tl + 1) - (2 * a - r) by ring,
        gg_eval ha (by omega) (by omega) (by omega),
        show v0 + a * tl + (r - a) - (v0 + (a * tl - a * h + r)) = a * (h - 1) by ring,
        gg_mul ha (by omega)]
      unfold accPoly; ring

theorem hiOK_of_poly {ds v0 vn a T : Int} (ha : 0 < a)
    (hD : |v0 - vn| ≤ a * T) (hp : 0 ≤ accPoly ds v0 vn a T) : HiOK v0 vn a T ds := by
  rw [abs_le] at hD
  rcases le_total v0 vn with h | h
  · exact hiOK_of_poly_le ha h (by omega) hp
  · exact (hiOK_of_poly_le ha h (by omega) (by rw [accPoly_swap]; exact hp)).swap

/-! ### `max_acceleration_curve` -/

theorem roundSpeed_spec {v0 vn a : Int} (ha : 0 < a) :
    ∃ x, roundSpeed v0 vn a = some x ∧
      |2 * (a * a) * x + 2 * a * (v0 + vn)| ≤ a * a := by
  have key : ∀ x, |2 * (a * x) + 2 * (v0 + vn)| ≤ a →
      |2 * (a * a) * x + 2 * a * (v0 + vn)| ≤ a * a := by
    intro x h
    have : 2 * (a * a) * x + 2 * a * (v0 + vn) = a * (2 * (a * x) + 2 * (v0 + vn)) := by ring
    rw [this, abs_mul, abs_of_pos ha]
    exact mul_le_mul_of_nonneg_left h ha.le
  have h2a : 2 * a ≠ 0 := by omega
  unfold roundSpeed
  by_cases hs : v0 + vn ≥ 0
  · rw [if_pos hs]
    refine ⟨-((2 * (v0 + vn) + a) / (2 * a)), ?_, key _ ?_⟩
    · rw [cdiv, if_neg h2a, Int.tdiv_eq_ediv_of_nonneg (by omega)]; rfl
    · have h1 := Int.mul_ediv_add_emod (2 * (v0 + vn) + a) (2 * a)
      have h2 := Int.emod_nonneg (2 * (v0 + vn) + a) h2a
      have h3 := Int.emod_lt_of_pos (2 * (v0 + vn) + a) (show 0 < 2 * a by omega)
      generalize (2 * (v0 + vn) + a) / (2 * a) = q at *
      have e : 2 * (a * -q) = -(2 * a * q) := by ring
      rw [e, abs_le]; omega
  · rw [if_neg hs]
    refine ⟨(-2 * (v0 + vn) + a) / (2 * a), ?_, key _ ?_⟩
    · rw [cdiv, if_neg h2a, Int.tdiv_eq_ediv_of_nonneg (by omega)]
    · have h1 := Int.mul_ediv_add_emod (-2 * (v0 + vn) + a) (2 * a)
      have h2 := Int.emod_nonneg (-2 * (v0 + vn) + a) h2a
      have h3 := Int.emod_lt_of_pos (-2 * (v0 + vn) + a) (show 0 < 2 * a by omega)
      generalize (-2 * (v0 + vn) + a) / (2 * a) = q at *
      have e : 2 * (a * q) = 2 * a * q := by ring
      rw [e, abs_le]; omega

/-- A quarter of the range of `i64`: every relevant duration is below. -/
abbrev bigT : Int := 4611686018427387904
/-- Largest velocity considered. -/
abbrev bigV : Int := 576460752303423488

theorem accPoly_far {ds v0 vn a T : Int} (ha : 0 < a) (h0 : |v0| ≤ bigV) (hn : |vn| ≤ bigV)
    (hds : |ds| ≤ bigT) (hT : bigT ≤ |T|) : 0 < accPoly ds v0 vn a T := by
  unfold accPoly
  have hs : |v0 + vn| ≤ 2 * bigV := (abs_add_le _ _).trans (by omega)
  have hd : |v0 - vn| ≤ 2 * bigV := by
    rw [abs_le] at *; omega
  have h1 : (v0 - vn) * (v0 - vn) ≤ (2 * bigV) * (2 * bigV) := by
    rw [← abs_mul_abs_self (v0 - vn)]
    exact mul_le_mul hd hd (abs_nonneg _) (by norm_num)
  have h2 : -(2 * bigV * |T|) ≤ (v0 + vn) * T := by
    have : |(v0 + vn) * T| ≤ 2 * bigV * |T| := by
      rw [abs_mul]
      exact mul_le_mul_of_nonneg_right hs (abs_nonneg _)
    exact (neg_le_neg this).trans (neg_abs_le _)
  have h3 : a * a * T * T = a * (a * (|T| * |T|)) := by rw [abs_mul_abs_self]; ring
  have h4 : 2 * a * (v0 + vn) * T = a * (2 * ((v0 + vn) * T)) := by ring
  have h5 : ds ≤ bigT := (le_abs_self ds).trans hds
  rw [h3, h4]
  generalize |T| = t at *
  have ht2 : bigT * t ≤ t * t := mul_le_mul_of_nonneg_right hT (le_trans (by norm_num) hT)
  have hat : t * t ≤ a * (t * t) := by
    have : 0 ≤ t * t := by positivity
    nlinarith
  have hkey : 4 * bigV * bigV + a + 2 * bigT < a * (t * t) - 2 * (2 * bigV * t) := by
    have g1 : a * (t * t) - 2 * (2 * bigV * t) = a * (t * t) - 4 * bigV * t := by ring
    have g2 : 2 * a * (8 * bigV * bigV) ≤ a * (t * t) := by
      have : 16 * bigV * bigV ≤ t * t := by
        calc 16 * bigV * bigV ≤ bigT * bigT := by norm_num [bigV, bigT]
          _ ≤ bigT * t := mul_le_mul_of_nonneg_left hT (by norm_num)
          _ ≤ t * t := ht2
      nlinarith
    have g3 : 4 * bigV * t * 2 ≤ a * (t * t) := by
      calc 4 * bigV * t * 2 = bigT * t := by norm_num [bigV, bigT]; ring
        _ ≤ t * t := ht2
        _ ≤ a * (t * t) := hat
    have g4 : a ≤ a * bigV := by nlinarith [show (1 : Int) ≤ bigV by norm_num]
    have g5 : bigV * bigV ≤ a * (bigV * bigV) := by
      nlinarith [show (0 : Int) ≤ bigV * bigV by norm_num]
    norm_num [bigV, bigT] at *
    nlinarith
  have hexp : a * (4 * bigV * bigV + a + 2 * bigT) < a * (a * (t * t) - 2 * (2 * bigV * t)) :=
    mul_lt_mul_of_pos_left hkey ha
  have g6 : a * (-(2 * bigV * t)) ≤ a * ((v0 + vn) * T) := mul_le_mul_of_nonneg_left h2 ha.le
  have g7 : a * ds ≤ a * bigT := mul_le_mul_of_nonneg_left h5 ha.le
  have g8 : 4 * bigV * bigV ≤ a * (4 * bigV * bigV) := by
    nlinarith [show (0 : Int) ≤ bigV * bigV by norm_num]
  nlinarith

theorem range_spec {lo hi : Int} (h : lo < hi) :
    Ordered (MultiRange.range lo hi).ranges ∧ AllNonempty (MultiRange.range lo hi).ranges ∧
      ∀ T, Contains (MultiRange.range lo hi).ranges T ↔ lo ≤ T ∧ T < hi := by
  refine ⟨?_, ?_, ?_⟩
  · simp [MultiRange.range, Ordered, h.le]
  · simp [MultiRange.range, AllNonempty, h]
  · simp [MultiRange.range, Contains]

theorem bigT_lt : bigT < i64Max := by norm_num [i64Max]
theorem i64Min_lt : i64Min < -bigT := by norm_num [i64Min]

theorem tMin_le {v0 vn a : Int} (ha : 0 < a) (h0 : |v0| ≤ bigV) (hn : |vn| ≤ bigV) :
    tMin v0 vn a ≤ bigT := by
  rw [tMin_spec ha]
  refine ⟨by norm_num, ?_⟩
  have : |v0 - vn| ≤ 2 * bigV := by rw [abs_le] at *; omega
  have h2 : bigT ≤ a * bigT := by nlinarith [show (0 : Int) < bigT by norm_num]
  have h3 : 2 * bigV ≤ bigT := by norm_num
  omega

/-- Exact content of `max_acceleration_curve`. -/
theorem mac_spec {ds v0 vn a : Int} (ha : 0 < a) (h0 : |v0| ≤ bigV) (hn : |vn| ≤ bigV)
    (hds : |ds| ≤ bigT) :
    ∃ r, maxAccelerationCurve ds v0 vn a = some r ∧ Ordered r.ranges ∧ AllNonempty r.ranges ∧
      ∀ T, Contains r.ranges T ↔ tMin v0 vn a ≤ T ∧ T < i64Max ∧
        0 ≤ accPoly ds v0 vn a T ∧ 0 ≤ accPoly ds v0 vn a (T + 1) := by
  have hcx : 0 < a * a := by positivity
  have htm : minTime v0 vn a = some (tMin v0 vn a) := by
    unfold minTime tMin
    by_cases h : v0 = vn
    · simp [h]
    · rw [if_pos h, if_neg h, cdiv, if_neg ha.ne']
      rw [Int.tdiv_eq_ediv_of_nonneg (by have := abs_nonneg (v0 - vn); omega)]
      rfl
  have htb := tMin_le ha h0 hn
  have htp := tMin_pos (v0 := v0) (vn := vn) ha
  have hbT := bigT_lt
  have hfull := range_spec (lo := tMin v0 vn a) (hi := i64Max) (by omega)
  unfold maxAccelerationCurve
  rw [htm]
  simp only [Option.bind_eq_bind, Option.bind_some, Option.pure_def]
  by_cases hs : (v0 - vn) * (v0 - vn) + a * (a + 2 * ds) + (v0 + vn) * (v0 + vn) < 0
  · rw [if_pos hs]
    refine ⟨_, rfl, hfull.1, hfull.2.1, fun T => ?_⟩
    have all : ∀ T, 0 ≤ accPoly ds v0 vn a T := by
      intro T
      have : accPoly ds v0 vn a T = (a * T + (v0 + vn)) * (a * T + (v0 + vn))
          - ((v0 - vn) * (v0 - vn) + a * (a + 2 * ds) + (v0 + vn) * (v0 + vn)) := by
        unfold accPoly; ring
      have h2 := mul_self_nonneg (a * T + (v0 + vn))
      omega
    rw [hfull.2.2]
    simp [all]
  rw [if_neg hs]
  obtain ⟨xmin, hx1, hx2⟩ := roundSpeed_spec (v0 := v0) (vn := vn) ha
  rw [hx1]
  simp only [Option.bind_some]
  by_cases hy : sqpoly (a * a) (2 * a * (v0 + vn)) ((v0 - vn) * (v0 - vn) + a * (a + 2 * ds)) xmin ≥ 0
  · rw [if_pos hy]
    refine ⟨_, rfl, hfull.1, hfull.2.1, fun T => ?_⟩
    have all : ∀ T, 0 ≤ accPoly ds v0 vn a T := by
      intro T
      rw [← accPoly_eq]
      exact all_nonneg _ _ _ xmin hcx hx2 hy T
    rw [hfull.2.2]
    simp [all]
  · rw [if_neg hy]
    obtain ⟨limit, x1, x2, e1, e2, e3, l1, l2, hiff⟩ := both_roots _ _ _ xmin hcx hx2 (not_le.1 hy)
    rw [e1]
    simp only [Option.bind_some]
    rw [e2, e3]
    simp only [accPoly_eq] at hiff
    have hx2b : x2 ≤ bigT := by
      have := accPoly_far (T := bigT) ha h0 hn hds (by rw [abs_of_pos (by norm_num)])
      rcases (hiff bigT).1 this.le with h | h
      · exfalso
        have hneg : ∀ y, y ≤ bigT → 0 ≤ accPoly ds v0 vn a y := by
          intro y hy; rw [hiff]; left; omega
        have hpos : ∀ y, bigT ≤ y → 0 ≤ accPoly ds v0 vn a y := by
          intro y hy
          exact (accPoly_far ha h0 hn hds (by rw [abs_of_nonneg]; · exact hy
                                              · exact le_trans (by norm_num) hy)).le
        apply hy
        rw [accPoly_eq]
        rcases le_total xmin bigT with h | h
        · exact hneg _ h
        · exact hpos _ h
      · exact h
    have hx1b : -bigT ≤ x1 := by
      have := accPoly_far (T := -bigT) ha h0 hn hds (by rw [abs_neg, abs_of_pos (by norm_num)])
      rcases (hiff (-bigT)).1 this.le with h | h
      · exact h
      · exfalso
        have hpos : ∀ y, -bigT ≤ y → 0 ≤ accPoly ds v0 vn a y := by
          intro y hy; rw [hiff]; right; omega
        have hneg : ∀ y, y ≤ -bigT → 0 ≤ accPoly ds v0 vn a y := by
          intro y hy
          refine (accPoly_far ha h0 hn hds ?_).le
          rw [abs_of_nonpos (le_trans hy (by norm_num))]; omega
        apply hy
        rw [accPoly_eq]
        rcases le_total xmin (-bigT) with h | h
        · exact hneg _ h
        · exact hpos _ h
    have hmin := i64Min_lt
    unfold gapRange
    have o1 : (MultiRange.new : MultiRange Int).or i64Min x1
        = some (MultiRange.new.orBody i64Min x1) := by simp [MultiRange.or]; omega
    have s1 := orBody_spec (MultiRange.new : MultiRange Int) i64Min x1 (by omega)
      (by simp [MultiRange.new, Ordered])
    generalize (MultiRange.new : MultiRange Int).orBody i64Min x1 = r1 at o1 s1
    have o2 : r1.or x2 i64Max = some (r1.orBody x2 i64Max) := by simp [MultiRange.or]; omega
    have s2 := orBody_spec r1 x2 i64Max (by omega) s1.1
    generalize r1.orBody x2 i64Max = r2 at o2 s2
    simp only [o1, o2, Option.bind_eq_bind, Option.bind_some, Option.pure_def]
    have s3 := and_spec r2 (tMin v0 vn a) i64Max s2.1
    refine ⟨_, rfl, s3.2.1 (by omega),
      s3.2.2 (by omega) (s2.2.2 (by omega) (s1.2.2 (by omega) (by simp [MultiRange.new, AllNonempty]))),
      fun T => ?_⟩
    rw [s3.1, s2.2.1, s1.2.1, hiff, hiff]
    simp only [MultiRange.new, Contains, List.not_mem_nil, false_and, exists_false, false_or]
    constructor
    · rintro ⟨h | h, h2, h3⟩ <;> refine ⟨h2, h3, ?_, ?_⟩ <;> omega
    · rintro ⟨h2, h3, h4, h5⟩
      refine ⟨?_, h2, h3⟩
      omega

/-! ### `speed_limited_curve` -/

/-- The path that accelerates to `vmax` and immediately decelerates. -/
def peakDist (v0 vn a vmax : Int) : Int :=
  pdv v0 vn a (rt a (vmax - v0) + rt a (vmax - vn)) vmax

theorem pdv_peak (v0 vn a vmax T : Int) :
    pdv v0 vn a T vmax = peakDist v0 vn a vmax
      + 2 * vmax * (T - (rt a (vmax - v0) + rt a (vmax - vn))) := by
  unfold peakDist pdv; ring

theorem ramp_nonneg {v a vmax : Int} (ha : 0 < a) (h1 : v ≤ vmax) (h2 : -vmax ≤ v) :
    0 ≤ 2 * vmax * rt a (vmax - v) + gg a (vmax - v) := by
  have hb := rt_bounds ha (vmax - v)
  have hn := rt_nonneg ha (vmax - v)
  unfold gg
  rw [if_pos (by omega)]
  rw [abs_of_nonneg (by omega)] at hb
  rcases hn.lt_or_eq with h | h
  · generalize rt a (vmax - v) = t at *
    have e : 2 * vmax * t + (-(2 * (vmax - v) - a * t) * t + (vmax - v) - a * t)
        = (v + vmax) * t + (a * t - (vmax - v)) * (t - 1) := by ring
    have : 0 ≤ (v + vmax) * t := mul_nonneg (by omega) (by omega)
    have : 0 ≤ (a * t - (vmax - v)) * (t - 1) := mul_nonneg (by omega) (by omega)
    omega
  · rw [← h] at hb ⊢
    simp only [mul_zero] at hb ⊢
    omega

theorem peakDist_nonneg {v0 vn a vmax : Int} (ha : 0 < a) (h0 : |v0| ≤ vmax) (hn : |vn| ≤ vmax) :
    0 ≤ peakDist v0 vn a vmax := by
  rw [abs_le] at h0 hn
  have r1 := ramp_nonneg (v := v0) ha h0.2 h0.1
  have r2 := ramp_nonneg (v := vn) ha hn.2 hn.1
  unfold peakDist pdv
  have e : 2 * vmax * (rt a (vmax - v0) + rt a (vmax - vn)) + gg a (vmax - v0) + gg a (vmax - vn)
    = (2 * vmax * rt a (vmax - v0) + gg a (vmax - v0))
      + (2 * vmax * rt a (vmax - vn) + gg a (vmax - vn)) := by ring
  omega

/-- Least duration of a path that reaches `vmax`. -/
def slcLow (ds v0 vn a vmax : Int) : Int :=
  rt a (vmax - v0) + rt a (vmax - vn)
    + (ds - peakDist v0 vn a vmax + 2 * vmax - 1) / (2 * vmax)

theorem slc_eval {ds v0 vn a vmax : Int} (ha : 0 < a) (hv : 1 ≤ vmax) (h0 : v0 ≤ vmax)
    (hn : vn ≤ vmax) :
    speedLimitedCurve ds v0 vn a vmax =
      if peakDist v0 vn a vmax ≤ ds then
        (MultiRange.new : MultiRange Int).or (slcLow ds v0 vn a vmax) i64Max
      else some MultiRange.new := by
  have key : ∀ v, v ≤ vmax → Int.fdiv (vmax - v + a - 1) a = rt a (vmax - v) ∧
      Int.fmod (vmax - v + a - 1) a - (a - 1) = vmax - v - a * rt a (vmax - v) := by
    intro v h
    have e1 : Int.fdiv (vmax - v + a - 1) a = rt a (vmax - v) := by
      rw [Int.fdiv_eq_ediv_of_nonneg _ ha.le]
      unfold rt
      rw [abs_of_nonneg (by omega)]
    refine ⟨e1, ?_⟩
    have := Int.mul_fdiv_add_fmod (vmax - v + a - 1) a
    rw [e1] at this
    omega
  obtain ⟨k1, k2⟩ := key v0 h0
  obtain ⟨k3, k4⟩ := key vn hn
  unfold speedLimitedCurve cassert
  rw [if_pos ha.ne']
  simp only [Option.bind_eq_bind, Option.bind_some]
  rw [k1, k2, k3, k4]
  have es : (2 * v0 + rt a (vmax - v0) * a) * rt a (vmax - v0)
      + (vmax - v0 - a * rt a (vmax - v0)) + (2 * vn + rt a (vmax - vn) * a) * rt a (vmax - vn)
      + (vmax - vn - a * rt a (vmax - vn)) = peakDist v0 vn a vmax := by
    unfold peakDist pdv gg
    rw [if_pos (by omega), if_pos (by omega)]
    ring
  rw [es]
  by_cases h : peakDist v0 vn a vmax ≤ ds
  · rw [if_pos h, if_pos h, cdiv, if_neg (by omega), Int.tdiv_eq_ediv_of_nonneg (by omega)]
    rfl
  · rw [if_neg h, if_neg h]; rfl

/-- Limits of the theorems on curves.  The bounds on the sizes only exclude
durations beyond the range of `i64`. -/
structure Valid (ds v0 vn a vmax : Int) : Prop where
  a_pos : 1 ≤ a
  v_pos : 1 ≤ vmax
  v_big : vmax ≤ bigV
  h0 : |v0| ≤ vmax
  hn : |vn| ≤ vmax
  hds : |ds| ≤ bigT

theorem Valid.neg {ds v0 vn a vmax : Int} (h : Valid ds v0 vn a vmax) :
    Valid (-ds) (-v0) (-vn) a vmax :=
  ⟨h.a_pos, h.v_pos, h.v_big, by rw [abs_neg]; exact h.h0, by rw [abs_neg]; exact h.hn,
    by rw [abs_neg]; exact h.hds⟩

theorem slcLow_le {ds v0 vn a vmax : Int} (h : Valid ds v0 vn a vmax) :
    slcLow ds v0 vn a vmax ≤ bigT := by
  have ha : 0 < a := h.a_pos
  have hv := h.v_pos
  have hvb := h.v_big
  have h0 := abs_le.1 h.h0
  have hn := abs_le.1 h.hn
  have hds := (abs_le.1 h.hds).2
  have hp := peakDist_nonneg ha h.h0 h.hn
  have r : ∀ v, -vmax ≤ v → v ≤ vmax → rt a (vmax - v) ≤ 2 * bigV := by
    intro v h1 h2
    rw [rt_le_iff ha, abs_of_nonneg (by omega)]
    have : 2 * bigV ≤ a * (2 * bigV) := by nlinarith [show (0 : Int) < bigV by norm_num]
    omega
  have r1 := r v0 h0.1 h0.2
  have r2 := r vn hn.1 hn.2
  have q : (ds - peakDist v0 vn a vmax + 2 * vmax - 1) / (2 * vmax) ≤ 4 * bigV := by
    apply Int.le_of_lt_add_one
    rw [Int.ediv_lt_iff_lt_mul (by omega)]
    have e : (4 * bigV + 1) * (2 * vmax) = 8 * bigV * vmax + 2 * vmax := by ring
    have : 8 * bigV ≤ 8 * bigV * vmax := by nlinarith [show (0 : Int) < bigV by norm_num]
    have : bigT = 8 * bigV := by norm_num
    omega
  unfold slcLow
  have : bigT = 8 * bigV := by norm_num
  omega

theorem slc_spec {ds v0 vn a vmax : Int} (h : Valid ds v0 vn a vmax) :
    (peakDist v0 vn a vmax ≤ ds → ∃ r, speedLimitedCurve ds v0 vn a vmax = some r ∧
      Ordered r.ranges ∧ AllNonempty r.ranges ∧ r.isEmpty = false ∧
      ∀ T, Contains r.ranges T ↔ T < i64Max ∧
        rt a (vmax - v0) + rt a (vmax - vn) ≤ T ∧ ds ≤ pdv v0 vn a T vmax) ∧
    (ds < peakDist v0 vn a vmax → speedLimitedCurve ds v0 vn a vmax = some MultiRange.new) := by
  have ha : 0 < a := h.a_pos
  have hv := h.v_pos
  have h0 := abs_le.1 h.h0
  have hn := abs_le.1 h.hn
  rw [slc_eval ha hv h0.2 hn.2]
  constructor
  · intro hp
    rw [if_pos hp]
    have hl := slcLow_le h
    have hb := bigT_lt
    have o1 : (MultiRange.new : MultiRange Int).or (slcLow ds v0 vn a vmax) i64Max
        = some ⟨[(slcLow ds v0 vn a vmax, i64Max)]⟩ := by
      have : slcLow ds v0 vn a vmax ≤ i64Max := by omega
      simp [MultiRange.or, this, MultiRange.new, MultiRange.orBody, MultiRange.orJoin]
    refine ⟨_, o1, ?_, ?_, rfl, ?_⟩
    · simp [Ordered]; omega
    · simp [AllNonempty]; omega
    · intro T
      simp only [Contains, List.mem_singleton, exists_eq_left]
      rw [pdv_peak]
      unfold slcLow
      generalize peakDist v0 vn a vmax = p at *
      generalize rt a (vmax - v0) + rt a (vmax - vn) = t at *
      have q0 : 0 ≤ (ds - p + 2 * vmax - 1) / (2 * vmax) := Int.ediv_nonneg (by omega) (by omega)
      have key : (ds - p + 2 * vmax - 1) / (2 * vmax) ≤ T - t ↔ ds ≤ p + 2 * vmax * (T - t) := by
        rw [← Int.lt_add_one_iff, Int.ediv_lt_iff_lt_mul (by omega)]
        have e : (T - t + 1) * (2 * vmax) = 2 * vmax * (T - t) + 2 * vmax := by ring
        omega
      constructor
      · rintro ⟨h1, h2⟩
        exact ⟨h2, by omega, key.1 (by omega)⟩
      · rintro ⟨h1, h2, h3⟩
        have := key.2 h3
        exact ⟨by omega, h1⟩
  · intro hp
    rw [if_neg (by omega)]

/-! ### One direction of `shortest_curve_length` -/

/-- The durations accepted in one direction. -/
def SideOK (ds v0 vn a vmax T : Int) : Prop :=
  T < i64Max ∧
  ((peakDist v0 vn a vmax ≤ ds ∧ rt a (vmax - v0) + rt a (vmax - vn) ≤ T ∧
      ds ≤ pdv v0 vn a T vmax) ∨
   (ds < peakDist v0 vn a vmax ∧ tMin v0 vn a ≤ T ∧ 0 ≤ accPoly ds v0 vn a T ∧
      0 ≤ accPoly ds v0 vn a (T + 1)))

theorem oneSide_spec {ds v0 vn a vmax : Int} (h : Valid ds v0 vn a vmax) :
    ∃ r, sideLengths ds v0 vn a vmax = some r ∧ Ordered r.ranges ∧ AllNonempty r.ranges ∧
      ∀ T, Contains r.ranges T ↔ SideOK ds v0 vn a vmax T := by
  have hv := h.v_big
  unfold sideLengths SideOK
  obtain ⟨s1, s2⟩ := slc_spec h
  by_cases hp : peakDist v0 vn a vmax ≤ ds
  · obtain ⟨r, e, o, n, ne, c⟩ := s1 hp
    refine ⟨r, by simp [e, ne], o, n, fun T => ?_⟩
    rw [c]
    constructor
    · rintro ⟨h1, h2⟩; exact ⟨h1, Or.inl ⟨hp, h2⟩⟩
    · rintro ⟨h1, h2 | h2⟩
      · exact ⟨h1, h2.2⟩
      · omega
  · obtain ⟨r, e, o, n, c⟩ := mac_spec (ds := ds) (v0 := v0) (vn := vn) (a := a) h.a_pos
      (h.h0.trans hv) (h.hn.trans hv) h.hds
    refine ⟨r, ?_, o, n, fun T => ?_⟩
    · rw [s2 (by omega)]
      simp [MultiRange.new, MultiRange.isEmpty, e]
    · rw [c]
      constructor
      · rintro ⟨h1, h2, h3⟩; exact ⟨h2, Or.inr ⟨by omega, h1, h3⟩⟩
      · rintro ⟨h1, h2 | h2⟩
        · omega
        · exact ⟨h2.2.1, h1, h2.2.2⟩

theorem SideOK.far {ds v0 vn a vmax T : Int} (h : Valid ds v0 vn a vmax) (hT : bigT ≤ T)
    (hT' : T < i64Max) : SideOK ds v0 vn a vmax T := by
  have ha : 0 < a := h.a_pos
  have hv := h.v_pos
  refine ⟨hT', ?_⟩
  by_cases hp : peakDist v0 vn a vmax ≤ ds
  · left
    refine ⟨hp, ?_⟩
    obtain ⟨r, e, o, n, ne, c⟩ := (slc_spec h).1 hp
    have := (c T).1 ?_
    · exact this.2
    · have h0 := abs_le.1 h.h0
      have hn := abs_le.1 h.hn
      rw [slc_eval ha hv h0.2 hn.2, if_pos hp] at e
      have hl := slcLow_le h
      have hb := bigT_lt
      have o1 : (MultiRange.new : MultiRange Int).or (slcLow ds v0 vn a vmax) i64Max
          = some ⟨[(slcLow ds v0 vn a vmax, i64Max)]⟩ := by
        have : slcLow ds v0 vn a vmax ≤ i64Max := by omega
        simp [MultiRange.or, this, MultiRange.new, MultiRange.orBody, MultiRange.orJoin]
      rw [o1] at e
      cases e
      simp [Contains]
      omega
  · right
    have a1 := h.h0.trans h.v_big
    have a2 := h.hn.trans h.v_big
    have hT0 : 0 ≤ T := le_trans (by norm_num) hT
    refine ⟨by omega, (tMin_le ha a1 a2).trans hT, ?_, ?_⟩
    · exact (accPoly_far ha a1 a2 h.hds (by rw [abs_of_nonneg hT0]; exact hT)).le
    · exact (accPoly_far ha a1 a2 h.hds (by rw [abs_of_nonneg (by omega)]; omega)).le

theorem SideOK.hi {ds v0 vn a vmax T : Int} (h : Valid ds v0 vn a vmax)
    (hs : SideOK ds v0 vn a vmax T) :
    |v0 - vn| ≤ a * T ∧ HiOK v0 vn a T ds ∧
      (rt a (vmax - v0) + rt a (vmax - vn) ≤ T → ds ≤ pdv v0 vn a T vmax) := by
  have ha : 0 < a := h.a_pos
  have hv := h.v_pos
  have h0 := abs_le.1 h.h0
  have hn := abs_le.1 h.hn
  obtain ⟨-, ⟨p1, p2, p3⟩ | ⟨p1, p2, p3, p4⟩⟩ := hs
  · refine ⟨?_, ⟨vmax, h0.2, hn.2, p2, p3⟩, fun _ => p3⟩
    have b1 := (rt_bounds ha (vmax - v0)).2
    have b2 := (rt_bounds ha (vmax - vn)).2
    rw [abs_of_nonneg (by omega)] at b1 b2
    have n1 := rt_nonneg ha (vmax - v0)
    have n2 := rt_nonneg ha (vmax - vn)
    have := mul_le_mul_of_nonneg_left (show rt a (vmax - v0) ≤ T by omega) ha.le
    have := mul_le_mul_of_nonneg_left (show rt a (vmax - vn) ≤ T by omega) ha.le
    rw [abs_le]; omega
  · rw [tMin_spec ha] at p2
    refine ⟨p2.2, hiOK_of_poly ha p2.2 p3, ?_⟩
    intro hr
    rw [pdv_peak]
    have : 0 ≤ 2 * vmax * (T - (rt a (vmax - v0) + rt a (vmax - vn))) :=
      mul_nonneg (by omega) (by omega)
    omega

/-- Accepted in both directions. -/
theorem both_pos {ds v0 vn a vmax T : Int} (h : Valid ds v0 vn a vmax)
    (hs : SideOK ds v0 vn a vmax T) (hs' : SideOK (-ds) (-v0) (-vn) a vmax T) : 1 ≤ T := by
  have ha : 0 < a := h.a_pos
  have hv := h.v_pos
  obtain ⟨-, ⟨p1, p2, p3⟩ | ⟨p1, p2, p3, p4⟩⟩ := hs
  · obtain ⟨-, ⟨q1, q2, q3⟩ | ⟨q1, q2, q3, q4⟩⟩ := hs'
    · have n1 := rt_nonneg ha (vmax - vn)
      have n2 := rt_nonneg ha (vmax - -vn)
      have n3 := rt_nonneg ha (vmax - v0)
      have n4 := rt_nonneg ha (vmax - -v0)
      by_cases hz : vmax - v0 = 0
      · have := rt_pos ha (d := vmax - -v0) (by omega)
        omega
      · have := rt_pos ha hz
        omega
    · have := tMin_pos (v0 := -v0) (vn := -vn) ha
      omega
  · have := tMin_pos (v0 := v0) (vn := vn) ha
    omega

/-- Exact content of `shortest_curve_length`. -/
theorem scl_spec {ds v0 vn a vmax : Int} (h : Valid ds v0 vn a vmax) :
    ∃ r, shortestCurveLength ds v0 vn a vmax = some r ∧ Ordered r.ranges ∧
      AllNonempty r.ranges ∧
      ∀ T, Contains r.ranges T ↔
        SideOK ds v0 vn a vmax T ∧ SideOK (-ds) (-v0) (-vn) a vmax T := by
  obtain ⟨p, e1, o1, n1, c1⟩ := oneSide_spec h
  obtain ⟨q, e2, o2, n2, c2⟩ := oneSide_spec h.neg
  have s := andRange_spec p q o1 o2
  refine ⟨p.andRange q, ?_, s.2.1, s.2.2 n1 n2, fun T => ?_⟩
  · simp [shortestCurveLength, e1, e2]
  · rw [s.1, c1, c2]

/-- Everything `adjust_curve` needs holds for accepted durations. -/
theorem accepted_adjust {ds v0 vn a vmax T : Int} (h : Valid ds v0 vn a vmax)
    (hs : SideOK ds v0 vn a vmax T) (hs' : SideOK (-ds) (-v0) (-vn) a vmax T) :
    1 ≤ T ∧ ∃ vf adj, adjustCurve T ds v0 vn a = some ⟨v0, vn, a, vf, T, adj⟩ ∧
      Geo v0 vn a T vf adj ∧ |pdv v0 vn a T vf + 2 * adj - ds| ≤ 1 := by
  have hT := both_pos h hs hs'
  obtain ⟨d1, d2, d3⟩ := hs.hi h
  obtain ⟨g1, g2, g3⟩ := hs'.hi h.neg
  exact ⟨hT, adjust_ok h.a_pos hT d1 d2 (loOK_of_neg h.a_pos g2)⟩

/-! ### Speed -/

theorem speed_hi {v0 vn a T vf adj ds V : Int} (ha : 0 < a) (h0 : v0 ≤ V) (hn : vn ≤ V)
    (hg : Geo v0 vn a T vf adj) (hd : |pdv v0 vn a T vf + 2 * adj - ds| ≤ 1)
    (hV : rt a (V - v0) + rt a (V - vn) ≤ T → ds ≤ pdv v0 vn a T V) :
    (adj ≤ 0 → vf ≤ V) ∧ (0 < adj → vf + 1 ≤ V) := by
  have mono : ∀ x y, V ≤ x → x ≤ y → rt a (y - v0) + rt a (y - vn) ≤ T →
      pdv v0 vn a T x ≤ pdv v0 vn a T y := by
    intro x y h1 h2 h3
    apply pdv_mono ha h2
    intro z hz1 hz2
    have := flatN_pos_above ha (show v0 ≤ z by omega) (show vn ≤ z by omega) hz2 h3
    omega
  have fit : ∀ y, V ≤ y → rt a (y - v0) + rt a (y - vn) ≤ T →
      rt a (V - v0) + rt a (V - vn) ≤ T := by
    intro y h1 h2
    have m1 := rt_mono ha (x := V - v0) (y := y - v0)
      (by rw [abs_of_nonneg (by omega), abs_of_nonneg (by omega)]; omega)
    have m2 := rt_mono ha (x := V - vn) (y := y - vn)
      (by rw [abs_of_nonneg (by omega), abs_of_nonneg (by omega)]; omega)
    omega
  rw [abs_le] at hd
  rcases hg with ⟨rfl, hr⟩ | ⟨hadj, hN, g1, g2⟩ | ⟨hadj, hN, hv⟩
  · refine ⟨fun _ => ?_, fun h => by omega⟩
    by_contra hc
    have h1 := hV (fit vf (by omega) hr)
    have h2 := flatN_pos_above ha h0 hn (show V < vf by omega) hr
    have h3 := pdv_succ (v0 := v0) (vn := vn) (T := T) ha V
    have h4 := mono (V + 1) vf (by omega) (by omega) hr
    omega
  · exact ⟨fun h => by omega, fun _ => by omega⟩
  · refine ⟨fun _ => ?_, fun h => by omega⟩
    by_contra hc
    have r1 := rt_eq_fl_of_pos ha (d := vf - v0) (by omega)
    have r2 := rt_eq_fl_of_pos ha (d := vf - vn) (by omega)
    have hN' := hN
    unfold flatN at hN'
    rw [show vf - v0 - 1 = vf - 1 - v0 by ring] at r1
    rw [show vf - vn - 1 = vf - 1 - vn by ring] at r2
    have hr : rt a (vf - v0) + rt a (vf - vn) ≤ T := by omega
    have h1 := hV (fit vf (by omega) hr)
    have h3 := pdv_succ (v0 := v0) (vn := vn) (T := T) ha (vf - 1)
    rw [show vf - 1 + 1 = vf by ring] at h3
    have hr' : rt a (vf - 1 - v0) + rt a (vf - 1 - vn) ≤ T := by
      have m1 := rt_mono ha (x := vf - 1 - v0) (y := vf - v0)
        (by rw [abs_of_nonneg (by omega), abs_of_nonneg (by omega)]; omega)
      have m2 := rt_mono ha (x := vf - 1 - vn) (y := vf - vn)
        (by rw [abs_of_nonneg (by omega), abs_of_nonneg (by omega)]; omega)
      omega
    have h4 := mono V (vf - 1) le_rfl (by omega) hr'
    omega

theorem speed_lo {v0 vn a T vf adj ds V : Int} (ha : 0 < a) (h0 : V ≤ v0) (hn : V ≤ vn)
    (hg : Geo v0 vn a T vf adj) (hd : |pdv v0 vn a T vf + 2 * adj - ds| ≤ 1)
    (hV : rt a (V - v0) + rt a (V - vn) ≤ T → pdv v0 vn a T V ≤ ds) :
    (0 ≤ adj → V ≤ vf) ∧ (adj < 0 → V ≤ vf - 1) := by
  have mono : ∀ x y, x ≤ y → y ≤ V → rt a (x - v0) + rt a (x - vn) ≤ T →
      pdv v0 vn a T x ≤ pdv v0 vn a T y := by
    intro x y h1 h2 h3
    apply pdv_mono ha h1
    intro z hz1 hz2
    have := flatN_pos_below ha (show z < v0 by omega) (show z < vn by omega) hz1 h3
    omega
  have fit : ∀ y, y ≤ V → rt a (y - v0) + rt a (y - vn) ≤ T →
      rt a (V - v0) + rt a (V - vn) ≤ T := by
    intro y h1 h2
    have m1 := rt_mono ha (x := V - v0) (y := y - v0)
      (by rw [abs_of_nonpos (by omega), abs_of_nonpos (by omega)]; omega)
    have m2 := rt_mono ha (x := V - vn) (y := y - vn)
      (by rw [abs_of_nonpos (by omega), abs_of_nonpos (by omega)]; omega)
    omega
  rw [abs_le] at hd
  rcases hg with ⟨rfl, hr⟩ | ⟨hadj, hN, g1, g2⟩ | ⟨hadj, hN, hv⟩
  · refine ⟨fun _ => ?_, fun h => by omega⟩
    by_contra hc
    have h1 := hV (fit vf (by omega) hr)
    have h2 := flatN_pos_below ha (x := V - 1) (v0 := v0) (vn := vn) (by omega) (by omega)
      (show vf ≤ V - 1 by omega) hr
    have h3 := pdv_succ (v0 := v0) (vn := vn) (T := T) ha (V - 1)
    rw [show V - 1 + 1 = V by ring] at h3
    have h4 := mono vf (V - 1) (by omega) (by omega) hr
    omega
  · refine ⟨fun _ => ?_, fun h => by omega⟩
    by_contra hc
    have r1 := rt_of_neg ha (d := vf - v0) (by omega)
    have r2 := rt_of_neg ha (d := vf - vn) (by omega)
    have hN' := hN
    unfold flatN at hN'
    have hr : rt a (vf - v0) + rt a (vf - vn) ≤ T := by omega
    have h1 := hV (fit vf (by omega) hr)
    have h3 := pdv_succ (v0 := v0) (vn := vn) (T := T) ha vf
    have hr' : rt a (vf + 1 - v0) + rt a (vf + 1 - vn) ≤ T := by
      have m1 := rt_mono ha (x := vf + 1 - v0) (y := vf - v0)
        (by rw [abs_of_nonpos (by omega), abs_of_nonpos (by omega)]; omega)
      have m2 := rt_mono ha (x := vf + 1 - vn) (y := vf - vn)
        (by rw [abs_of_nonpos (by omega), abs_of_nonpos (by omega)]; omega)
      omega
    have h4 := mono (vf + 1) V (by omega) le_rfl hr'
    omega
  · exact ⟨fun h => by omega, fun _ => by omega⟩

end StepperPaths.IntegerCurve
