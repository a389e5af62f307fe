import Verif.Proof.IntegerCurve.Mono

/-! `adjust_curve_mid`: flat velocities between the end velocities. -/

namespace StepperPaths.IntegerCurve

section
variable {lo a ta ρ T : Int}

/-- Distance for flat velocities in the slow part of a period. -/
theorem pv1 (ha : 0 < a) (hra : ρ < a) {t q : Int} (ht : 0 ≤ t) (htt : t ≤ ta)
    (hq : 0 ≤ q) (hqr : q ≤ ρ + 1) :
    pdv lo (lo + a * ta + ρ + 1) a T (lo + a * t + ρ + 1 - q) =
      2 * (a * T - a * ta - ρ - 1) * t
      + (-(ρ + 1) + 2 * (lo + ρ + 1) * T + a * ta * ta) - 2 * q * (T - ta - 1) := by
  unfold pdv
  have e1 : lo + a * t + ρ + 1 - q - lo = a * (t + 1) - (a - ρ - 1 + q) := by ring
  have e2 : lo + a * t + ρ + 1 - q - (lo + a * ta + ρ + 1) = -(a * (ta - t + 1) - (a - q)) := by
    ring
  rw [e1, e2, gg_neg ha, gg_eval ha (by omega) (by omega) (by omega),
    gg_eval ha (by omega) (by omega) (by omega)]
  ring

/-- Distance for flat velocities in the fast part of a period. -/
theorem pv2 (ha : 0 < a) (hr : 0 ≤ ρ) {t q : Int} (ht : 1 ≤ t) (htt : t ≤ ta)
    (hq : 0 ≤ q) (hqr : q ≤ a - 1 - ρ) :
    pdv lo (lo + a * ta + ρ + 1) a T (lo + a * t - q) =
      2 * (a * T - a * ta - ρ - 1) * t
      + (-(ρ + 1) + 2 * (lo + ρ + 1) * T + a * ta * ta) - 2 * (ρ + 1) * (T - ta - 1)
      - 2 * q * (T - ta) := by
  unfold pdv
  have e1 : lo + a * t - q - lo = a * t - q := by ring
  have e2 : lo + a * t - q - (lo + a * ta + ρ + 1) = -(a * (ta - t + 1) - (a - ρ - 1 - q)) := by
    ring
  rw [e1, e2, gg_neg ha, gg_eval ha (by omega) (by omega) (by omega),
    gg_eval ha (by omega) (by omega) (by omega)]
  ring

theorem rt_le_of {a d t : Int} (ha : 0 < a) (h1 : -(a * t) ≤ d) (h2 : d ≤ a * t) : rt a d ≤ t := by
  rw [rt_le_iff ha, abs_le]; exact ⟨h1, h2⟩

theorem midFlat_eval (ha : 0 < a) (hta : 0 ≤ ta) (hr : 0 ≤ ρ) (hra : ρ < a)
    (hT : a * ta + ρ + 1 < a * T) {ds K m : Int}
    (hK : K = 2 * (a * T - a * ta - ρ - 1))
    (hm : m = -(ρ + 1) + 2 * (lo + ρ + 1) * T + a * ta * ta) :
    midFlat T ds lo (lo + a * ta + ρ + 1) a =
      if K * ta + m < ds ∨ m - 2 * (ρ + 1) * (T - ta - 1) > ds then some none
      else
        (let t := (ds - m + K) / K
         let sHigh := K * t + m
         let sSplit := K * t + m - 2 * (ρ + 1) * (T - ta - 1)
         if ds ≥ sSplit then
          (cdiv (sHigh - ds) (2 * (T - ta - 1))).bind fun q =>
            some (some (lo + a * t + ρ + 1 - q,
              Int.tdiv (ds - (sHigh - 2 * q * (T - ta - 1))) 2))
         else some (some (lo + a * t - (sSplit - ds) / (2 * (T - ta)),
              Int.tdiv (ds - (sSplit - 2 * ((sSplit - ds) / (2 * (T - ta))) * (T - ta))) 2))) := by
  have hT1 : ta + 1 ≤ T := by
    by_contra hc
    have := mul_le_mul_of_nonneg_left (show T ≤ ta by omega) ha.le
    omega
  have hKpos : 0 < K := by omega
  have hdiv : Int.tdiv (lo + a * ta + ρ + 1 - lo - 1) a = ta := by
    rw [show lo + a * ta + ρ + 1 - lo - 1 = a * ta + ρ by ring,
      Int.tdiv_eq_ediv_of_nonneg (by positivity), Int.ediv_eq_iff_of_pos ha]
    constructor <;> linarith [mul_comm ta a]
  unfold midFlat
  simp only [cdiv, if_neg ha.ne', Option.bind_eq_bind, Option.bind_some, hdiv, Option.pure_def]
  have eK : 2 * (lo - (lo + a * ta + ρ + 1) + a * T) = K := by rw [hK]; ring
  have em : lo - (lo + a * ta + ρ + 1) + a * ta + 2 * (lo + a * ta + ρ + 1 - a * ta) * T
      + a * ta * ta = m := by rw [hm]; ring
  rw [eK, em, if_neg hKpos.ne']
  have es : (2 * (lo + a * ta + ρ + 1) - ta * a) * ta + (lo + a * ta + ρ + 1) - ta * a + lo
      + 2 * lo * (T - ta - 1) = m - 2 * (ρ + 1) * (T - ta - 1) := by rw [hm]; ring
  rw [es]
  by_cases hout : K * ta + m < ds ∨ m - 2 * (ρ + 1) * (T - ta - 1) > ds
  · rw [if_pos hout, if_pos hout]
  rw [if_neg hout, if_neg hout]
  push Not at hout
  have hge : 0 ≤ ds - m + K := by
    have : 0 ≤ (T - ta) * (a - ρ - 1) := mul_nonneg (by omega) (by omega)
    have e : K = 2 * (ρ + 1) * (T - ta - 1) + 2 * ((T - ta) * (a - ρ - 1)) := by rw [hK]; ring
    omega
  unfold cassert
  rw [if_pos hKpos, if_pos hge]
  simp only [Option.bind_some, if_neg hKpos.ne', Int.tdiv_eq_ediv_of_nonneg hge]
  generalize (ds - m + K) / K = t
  have esp : (2 * lo + a * t) * t + 2 * (lo + a * t) * (T - ta - 1) + (lo + a * ta + ρ + 1)
      - (ta - t) * a + lo + t * a + (2 * (lo + a * ta + ρ + 1) - (ta - t) * a) * (ta - t)
      = K * t + m - 2 * (ρ + 1) * (T - ta - 1) := by rw [hm, hK]; ring
  rw [esp]
  by_cases hs : ds ≥ K * t + m - 2 * (ρ + 1) * (T - ta - 1)
  · rw [if_pos hs, if_pos hs]
    congr 1; funext q
    congr 3
    · ring
    · ring_nf
  · rw [if_neg hs, if_neg hs, if_neg (by omega)]
    rw [Int.tdiv_eq_ediv_of_nonneg (show 0 ≤ K * t + m - 2 * (ρ + 1) * (T - ta - 1) - ds by omega)]
    simp only [Option.bind_some]
    congr 4
    ring

/-- The ticks to be adjusted, and what is left over. -/
theorem adj_facts {s ds w : Int} (h1 : ds ≤ s) (h2 : s - ds < 2 * w) :
    ∃ adj, Int.tdiv (ds - s) 2 = adj ∧ |s + 2 * adj - ds| ≤ 1 ∧ adj ≤ 0 ∧ -adj + 1 ≤ w := by
  have : Int.tdiv (ds - s) 2 = -((s - ds) / 2) := by
    rw [show ds - s = -(s - ds) by ring, Int.neg_tdiv, Int.tdiv_eq_ediv_of_nonneg (by omega)]
  refine ⟨_, this, ?_, by omega, by omega⟩
  rw [abs_le]; omega

/-- `Geo` for a path lowered from `vf`. -/
theorem geo_of_adj {v0 vn vf adj w : Int} (h0 : adj ≤ 0)
    (he : adj = 0 → rt a (vf - v0) + rt a (vf - vn) ≤ T)
    (hw : adj < 0 → flatN v0 vn a T (vf - 1) = w ∧ v0 < vf) (hle : -adj + 1 ≤ w) :
    Geo v0 vn a T vf adj := by
  rcases h0.lt_or_eq with h | h
  · obtain ⟨h1, h2⟩ := hw h
    exact Or.inr (Or.inr ⟨h, by omega, Or.inl h2⟩)
  · exact Or.inl ⟨h, he h⟩

theorem flatN_of_pdv {v0 vn a T x w : Int} (ha : 0 < a)
    (h : pdv v0 vn a T x = pdv v0 vn a T (x - 1) + 2 * w) : flatN v0 vn a T (x - 1) = w := by
  have := pdv_succ (v0 := v0) (vn := vn) (T := T) ha (x - 1)
  rw [show x - 1 + 1 = x by ring] at this
  omega

/-- Result of `midFlat`, when the velocities differ and there is slack. -/
theorem midFlat_ok (ha : 0 < a) (hta : 0 ≤ ta) (hr : 0 ≤ ρ) (hra : ρ < a)
    (hT : a * ta + ρ + 1 < a * T) {ds : Int}
    (h1 : pdv lo (lo + a * ta + ρ + 1) a T lo ≤ ds)
    (h2 : ds ≤ pdv lo (lo + a * ta + ρ + 1) a T (lo + a * ta + ρ + 1)) :
    ∃ vf adj, midFlat T ds lo (lo + a * ta + ρ + 1) a = some (some (vf, adj)) ∧
      Geo lo (lo + a * ta + ρ + 1) a T vf adj ∧
      |pdv lo (lo + a * ta + ρ + 1) a T vf + 2 * adj - ds| ≤ 1 ∧
      lo ≤ vf ∧ vf ≤ lo + a * ta + ρ + 1 ∧ adj ≤ 0 := by
  have hT1 : ta + 1 ≤ T := by
    by_contra hc
    have := mul_le_mul_of_nonneg_left (show T ≤ ta by omega) ha.le
    omega
  generalize hK : 2 * (a * T - a * ta - ρ - 1) = K
  generalize hm : -(ρ + 1) + 2 * (lo + ρ + 1) * T + a * ta * ta = m
  have hKpos : 0 < K := by omega
  have eK2 : K = 2 * (ρ + 1) * (T - ta - 1) + 2 * (T - ta) * (a - 1 - ρ) := by rw [← hK]; ring
  have P1 : ∀ t q, 0 ≤ t → t ≤ ta → 0 ≤ q → q ≤ ρ + 1 →
      pdv lo (lo + a * ta + ρ + 1) a T (lo + a * t + ρ + 1 - q)
        = K * t + m - 2 * q * (T - ta - 1) := by
    intro t q i1 i2 i3 i4
    rw [pv1 ha hra i1 i2 i3 i4, hK, hm]
  have P2 : ∀ t q, 1 ≤ t → t ≤ ta → 0 ≤ q → q ≤ a - 1 - ρ →
      pdv lo (lo + a * ta + ρ + 1) a T (lo + a * t - q)
        = K * t + m - 2 * (ρ + 1) * (T - ta - 1) - 2 * q * (T - ta) := by
    intro t q i1 i2 i3 i4
    rw [pv2 ha hr i1 i2 i3 i4, hK, hm]
  have Plo := P1 0 (ρ + 1) le_rfl hta (by omega) le_rfl
  rw [show lo + a * 0 + ρ + 1 - (ρ + 1) = lo by ring] at Plo
  have Phi := P1 ta 0 hta le_rfl le_rfl (by omega)
  rw [show lo + a * ta + ρ + 1 - 0 = lo + a * ta + ρ + 1 by ring] at Phi
  rw [Plo] at h1
  rw [Phi] at h2
  simp only [mul_zero, zero_mul, zero_add, sub_zero] at h1 h2
  rw [midFlat_eval ha hta hr hra hT hK.symm hm.symm, if_neg (by push Not; omega)]
  simp only
  have hge : 0 ≤ ds - m + K := by
    have : 0 ≤ (T - ta) * (a - 1 - ρ) := mul_nonneg (by omega) (by omega)
    have : 2 * (T - ta) * (a - 1 - ρ) = 2 * ((T - ta) * (a - 1 - ρ)) := by ring
    omega
  have t0 : 0 ≤ (ds - m + K) / K := Int.ediv_nonneg hge hKpos.le
  have tA : K * ((ds - m + K) / K) ≤ ds - m + K := Int.mul_ediv_self_le hKpos.ne'
  have tB : ds - m + K < K * ((ds - m + K) / K) + K := Int.lt_mul_ediv_self_add hKpos
  generalize (ds - m + K) / K = t at t0 tA tB
  rcases h2.lt_or_eq with hlt | heq
  · -- below the top
    have htt : t ≤ ta := by
      by_contra hc
      have := mul_le_mul_of_nonneg_left (show ta + 1 ≤ t by omega) hKpos.le
      rw [mul_add] at this
      omega
    have eat : a * (ta - t) = a * ta - a * t := by ring
    have hat : 0 ≤ a * (ta - t) := mul_nonneg ha.le (by omega)
    have hat0 : 0 ≤ a * t := mul_nonneg ha.le t0
    have eat1 : a * (t + 1) = a * t + a := by ring
    have eat2 : a * (ta - t + 1) = a * ta - a * t + a := by ring
    by_cases hs : ds ≥ K * t + m - 2 * (ρ + 1) * (T - ta - 1)
    · rw [if_pos hs]
      have hw : 1 ≤ T - ta - 1 := by
        by_contra hc
        have : T - ta - 1 = 0 := by omega
        rw [this] at hs; simp at hs; omega
      generalize hwd : T - ta - 1 = w at *
      simp only [cdiv, if_neg (show ¬ 2 * w = 0 by omega), Option.bind_some]
      rw [Int.tdiv_eq_ediv_of_nonneg (by omega)]
      have hw2 : 0 < 2 * w := by omega
      have q0 : 0 ≤ (K * t + m - ds) / (2 * w) := Int.ediv_nonneg (by omega) hw2.le
      have qA : 2 * w * ((K * t + m - ds) / (2 * w)) ≤ K * t + m - ds :=
        Int.mul_ediv_self_le hw2.ne'
      have qB : K * t + m - ds < 2 * w * ((K * t + m - ds) / (2 * w)) + 2 * w :=
        Int.lt_mul_ediv_self_add hw2
      generalize (K * t + m - ds) / (2 * w) = q at q0 qA qB
      have eqw : 2 * q * w = 2 * w * q := by ring
      have hq : q ≤ ρ + 1 := by
        by_contra hc
        have := mul_le_mul_of_nonneg_left (show ρ + 2 ≤ q by omega) hw2.le
        have e : 2 * w * (ρ + 2) = 2 * (ρ + 1) * w + 2 * w := by ring
        omega
      obtain ⟨adj, e1, e2, e3, e4⟩ := adj_facts (s := K * t + m - 2 * q * w) (ds := ds) (w := w)
        (by omega) (by omega)
      have hv := P1 t q t0 htt q0 hq
      refine ⟨_, adj, by rw [e1], ?_, by rw [hv]; exact e2, by omega, by omega, e3⟩
      apply geo_of_adj (w := w) e3 _ _ e4
      · intro _
        have r1 := rt_le_of (t := t + 1) (d := lo + a * t + ρ + 1 - q - lo) ha
          (by omega) (by omega)
        have r2 := rt_le_of (t := ta - t + 1)
          (d := lo + a * t + ρ + 1 - q - (lo + a * ta + ρ + 1)) ha (by omega) (by omega)
        omega
      · intro hneg
        have hq' : q ≤ ρ := by
          by_contra hc
          have hqe : q = ρ + 1 := by omega
          rw [hqe] at e2 eqw
          rw [abs_le] at e2
          omega
        constructor
        · apply flatN_of_pdv ha
          have hv2 := P1 t (q + 1) t0 htt (by omega) (by omega)
          rw [show lo + a * t + ρ + 1 - (q + 1) = lo + a * t + ρ + 1 - q - 1 by ring] at hv2
          rw [hv, hv2]; ring
        · omega
    · rw [if_neg hs]
      have ht1 : 1 ≤ t := by
        by_contra hc
        have : t = 0 := by omega
        subst this; omega
      have hw : 1 ≤ T - ta := by omega
      generalize hSd : K * t + m - 2 * (ρ + 1) * (T - ta - 1) = S at *
      have hSb : S - ds ≤ 2 * (T - ta) * (a - 1 - ρ) := by omega
      generalize hwd : T - ta = w at *
      have hw2 : 0 < 2 * w := by omega
      have q0 : 0 ≤ (S - ds) / (2 * w) := Int.ediv_nonneg (by omega) hw2.le
      have qA : 2 * w * ((S - ds) / (2 * w)) ≤ S - ds :=
        Int.mul_ediv_self_le hw2.ne'
      have qB : S - ds < 2 * w * ((S - ds) / (2 * w)) + 2 * w :=
        Int.lt_mul_ediv_self_add hw2
      generalize (S - ds) / (2 * w) = q at q0 qA qB
      have eqw : 2 * q * w = 2 * w * q := by ring
      have hq : q ≤ a - 1 - ρ := by
        by_contra hc
        have := mul_le_mul_of_nonneg_left (show a - ρ ≤ q by omega) hw2.le
        have e : 2 * w * (a - ρ) = 2 * w * (a - 1 - ρ) + 2 * w := by ring
        omega
      obtain ⟨adj, e1, e2, e3, e4⟩ := adj_facts (s := S - 2 * q * w) (ds := ds) (w := w)
        (by omega) (by omega)
      have hv := P2 t q ht1 htt q0 hq
      rw [hSd] at hv
      have hat1 : a ≤ a * t := by nlinarith
      refine ⟨_, adj, by rw [e1], ?_, by rw [hv]; exact e2, by omega, by omega, e3⟩
      apply geo_of_adj (w := w) e3 _ _ e4
      · intro _
        have r1 := rt_le_of (t := t) (d := lo + a * t - q - lo) ha
          (by omega) (by omega)
        have r2 := rt_le_of (t := ta - t + 1)
          (d := lo + a * t - q - (lo + a * ta + ρ + 1)) ha (by omega) (by omega)
        omega
      · intro hneg
        have hq' : q ≤ a - 2 - ρ := by
          by_contra hc
          have hqe : q = a - 1 - ρ := by omega
          have e2' := e2
          rw [abs_le] at e2'
          rw [hqe] at e2' eqw
          omega
        constructor
        · apply flatN_of_pdv ha
          have hv2 := P2 t (q + 1) ht1 htt (by omega) (by omega)
          rw [show lo + a * t - (q + 1) = lo + a * t - q - 1 by ring, hSd] at hv2
          rw [hv, hv2]; ring
        · omega
  · -- the top
    have htt : t = ta + 1 := by
      have l1 : ta + 1 ≤ t := by
        by_contra hc
        have := mul_le_mul_of_nonneg_left (show t ≤ ta by omega) hKpos.le
        omega
      have l2 : t < ta + 2 := by
        by_contra hc
        have := mul_le_mul_of_nonneg_left (show ta + 2 ≤ t by omega) hKpos.le
        have e : K * (ta + 2) = K * ta + 2 * K := by ring
        omega
      omega
    subst htt
    have eKt : K * (ta + 1) = K * ta + K := by ring
    have hgeo : Geo lo (lo + a * ta + ρ + 1) a T (lo + a * ta + ρ + 1) 0 := by
      left
      refine ⟨rfl, ?_⟩
      have r1 := rt_le_of (t := ta + 1) (d := lo + a * ta + ρ + 1 - lo) ha
        (by have := mul_nonneg ha.le hta; rw [mul_add]; omega) (by rw [mul_add]; omega)
      have r2 := rt_le_of (t := 0) (d := lo + a * ta + ρ + 1 - (lo + a * ta + ρ + 1)) ha
        (by simp) (by simp)
      omega
    have hat0 : 0 ≤ a * ta := mul_nonneg ha.le hta
    have hfin : |pdv lo (lo + a * ta + ρ + 1) a T (lo + a * ta + ρ + 1) + 2 * 0 - ds| ≤ 1 := by
      rw [Phi, abs_le]
      simp only [mul_zero, zero_mul]
      omega
    by_cases hs : ds ≥ K * (ta + 1) + m - 2 * (ρ + 1) * (T - ta - 1)
    · rw [if_pos hs]
      have hz : (T - ta) * (a - 1 - ρ) = 0 := by
        have h0 : 0 ≤ (T - ta) * (a - 1 - ρ) := mul_nonneg (by omega) (by omega)
        have : 2 * (T - ta) * (a - 1 - ρ) = 2 * ((T - ta) * (a - 1 - ρ)) := by ring
        omega
      have hρ : ρ = a - 1 := by
        rcases mul_eq_zero.1 hz with h | h <;> omega
      have hKw : K = 2 * (T - ta - 1) * a := by rw [← hK, hρ]; ring
      have hw : 0 < 2 * (T - ta - 1) := by
        by_contra hc
        have : T - ta - 1 = 0 := by omega
        rw [this] at hKw; simp at hKw; omega
      have hnum : K * (ta + 1) + m - ds = 2 * (T - ta - 1) * a := by
        rw [← hKw]; omega
      rw [hnum]
      simp only [cdiv, if_neg hw.ne', Option.bind_some]
      rw [Int.mul_tdiv_cancel_left _ hw.ne']
      have hvf : lo + a * (ta + 1) + ρ + 1 - a = lo + a * ta + ρ + 1 := by ring
      rw [hvf]
      have hz2 : ds - (K * (ta + 1) + m - 2 * a * (T - ta - 1)) = 0 := by linarith
      rw [hz2]
      exact ⟨_, 0, by simp, hgeo, hfin, by omega, by omega, le_rfl⟩
    · rw [if_neg hs]
      have hnum : K * (ta + 1) + m - 2 * (ρ + 1) * (T - ta - 1) - ds
          = 2 * (T - ta) * (a - 1 - ρ) := by omega
      rw [hnum]
      rw [Int.mul_ediv_cancel_left _ (show 2 * (T - ta) ≠ 0 by omega)]
      have hvf : lo + a * (ta + 1) - (a - 1 - ρ) = lo + a * ta + ρ + 1 := by ring
      rw [hvf]
      have hz2 : ds - (K * (ta + 1) + m - 2 * (ρ + 1) * (T - ta - 1)
          - 2 * (a - 1 - ρ) * (T - ta)) = 0 := by linarith
      rw [hz2]
      exact ⟨_, 0, by simp, hgeo, hfin, by omega, by omega, le_rfl⟩

/-- Equal end velocities: only the distance of the constant velocity is accepted. -/
theorem midFlat_same (ha : 0 < a) (hT : 1 ≤ T) (ds : Int) :
    midFlat T ds lo lo a = if ds = 2 * lo * T then some (some (lo, 0)) else some none := by
  have haT : 0 < a * T := by positivity
  unfold midFlat
  rcases (show a = 1 ∨ 2 ≤ a by omega) with rfl | ha2
  · have hd : Int.tdiv (lo - lo - 1) 1 = -1 := by simp
    simp only [cdiv, if_neg ha.ne', Option.bind_eq_bind, Option.bind_some, hd, Option.pure_def]
    rw [if_neg (by omega)]
    by_cases h : ds = 2 * lo * T
    · subst h
      rw [if_pos rfl, if_neg (by push Not; constructor <;> linarith)]
      unfold cassert
      rw [if_pos (by omega), if_pos (by linarith)]
      have e0 : 2 * lo * T - (lo - lo + 1 * -1 + 2 * (lo - 1 * -1) * T + 1 * -1 * -1)
          + 2 * (lo - lo + 1 * T) = 0 := by ring
      rw [e0]
      simp only [Option.bind_some, Int.zero_tdiv, if_neg (show ¬ 2 * (lo - lo + 1 * T) = 0 by omega)]
      rw [if_pos (by linarith), if_neg (by omega)]
      have e1 : 2 * (lo - lo + 1 * T) * 0 + (lo - lo + 1 * -1 + 2 * (lo - 1 * -1) * T + 1 * -1 * -1)
          - 2 * lo * T = 2 * (T - -1 - 1) * 1 := by ring
      rw [e1, Int.mul_tdiv_cancel_left _ (by omega)]
      simp only [Option.bind_some]
      have e2 : lo - 1 * (-1 - 0) - 1 = lo := by ring
      have e3 : 2 * lo * T - (2 * (lo - lo + 1 * T) * 0
          + (lo - lo + 1 * -1 + 2 * (lo - 1 * -1) * T + 1 * -1 * -1)
          - 2 * (lo - 1 * (-1 - 0) - lo) * (T - -1 - 1)) = 0 := by ring
      rw [e2, e3]; rfl
    · rw [if_neg h, if_pos]
      rcases lt_or_gt_of_ne h with h | h
      · right; linarith
      · left; linarith
  · have hd : Int.tdiv (lo - lo - 1) a = 0 := by
      rw [show lo - lo - 1 = -1 by ring, Int.neg_tdiv, Int.tdiv_eq_ediv_of_nonneg (by omega),
        Int.ediv_eq_zero_of_lt (by omega) (by omega)]; rfl
    simp only [cdiv, if_neg ha.ne', Option.bind_eq_bind, Option.bind_some, hd, Option.pure_def]
    rw [if_neg (by omega)]
    by_cases h : ds = 2 * lo * T
    · subst h
      rw [if_pos rfl, if_neg (by push Not; constructor <;> linarith)]
      unfold cassert
      rw [if_pos (by omega), if_pos (by linarith)]
      have e0 : 2 * lo * T - (lo - lo + a * 0 + 2 * (lo - a * 0) * T + a * 0 * 0)
          + 2 * (lo - lo + a * T) = 2 * (lo - lo + a * T) := by ring
      rw [e0]
      simp only [Option.bind_some, if_neg (show ¬ 2 * (lo - lo + a * T) = 0 by omega)]
      rw [Int.tdiv_self (by omega)]
      rw [if_neg (by nlinarith), if_neg (by omega)]
      have e1 : (2 * lo + a * 1) * 1 + 2 * (lo + a * 1) * (T - 0 - 1) + lo - (0 - 1) * a + lo
          + 1 * a + (2 * lo - (0 - 1) * a) * (0 - 1) - 2 * lo * T = 2 * (T - 0) * a := by ring
      rw [e1, Int.mul_tdiv_cancel_left _ (by omega)]
      simp only [Option.bind_some]
      have e2 : lo + a * 1 - a = lo := by ring
      have e3 : 2 * lo * T - ((2 * lo + a * 1) * 1 + 2 * (lo + a * 1) * (T - 0 - 1) + lo
          - (0 - 1) * a + lo + 1 * a + (2 * lo - (0 - 1) * a) * (0 - 1)
          - 2 * (lo + a * 1 - lo) * (T - 0)) = 0 := by ring
      rw [e2, e3]; rfl
    · rw [if_neg h, if_pos]
      rcases lt_or_gt_of_ne h with h | h
      · right; linarith
      · left; linarith

/-- Only full acceleration reaches the end velocity. -/
theorem midFlat_tight {hi ds : Int} (ha : 0 < a) (hT : 1 ≤ T) (h : hi - lo = a * T) :
    midFlat T ds lo hi a = some (some (lo + a, 0)) ∧ Geo lo hi a T (lo + a) 0 ∧
      ∀ x, lo ≤ x → x ≤ hi → pdv lo hi a T x = pdv lo hi a T (lo + a) := by
  refine ⟨?_, ?_, ?_⟩
  · unfold midFlat
    simp only [cdiv, if_neg ha.ne', Option.bind_eq_bind, Option.bind_some, Option.pure_def]
    rw [if_pos (by omega)]
  · left
    refine ⟨rfl, ?_⟩
    have r1 := rt_le_of (t := 1) (d := lo + a - lo) ha (by omega) (by omega)
    have e : a * (T - 1) = a * T - a := by ring
    have : 0 ≤ a * (T - 1) := mul_nonneg ha.le (by omega)
    have r2 := rt_le_of (t := T - 1) (d := lo + a - hi) ha (by omega) (by omega)
    omega
  · have key : ∀ z, lo ≤ z → z < hi → flatN lo hi a T z = 0 := by
      intro z h1 h2
      have f1 := fl_bounds ha (d := z - lo) (by omega)
      have f2 := fl_bounds_neg ha (d := z - hi) (by omega)
      unfold flatN
      have l1 := flatN_nonneg_mid (T := T) ha h1 h2 (by omega)
      unfold flatN at l1
      by_contra hc
      have := mul_le_mul_of_nonneg_left
        (show fl a (z - lo) + fl a (z - hi) + 2 ≤ T by omega) ha.le
      have e : a * (fl a (z - lo) + fl a (z - hi) + 2)
        = a * fl a (z - lo) + a * fl a (z - hi) + 2 * a := by ring
      omega
    have all : ∀ x, lo ≤ x → x ≤ hi → pdv lo hi a T x = pdv lo hi a T lo := by
      intro x h1
      induction x, h1 using Int.leInduction with
      | base => intro _; rfl
      | succ y hy ih =>
        intro h2
        rw [pdv_succ ha, ih (by omega), key y hy (by omega)]; ring
    intro x h1 h2
    have : a ≤ a * T := by nlinarith
    rw [all x h1 h2, all (lo + a) (by omega) (by omega)]

/-- Specification of `adjust_curve_mid`, sorted velocities. -/
theorem midFlat_spec {hi ds : Int} (ha : 0 < a) (hT : 1 ≤ T) (hle : lo ≤ hi) (hD : hi - lo ≤ a * T) :
    (pdv lo hi a T lo ≤ ds → ds ≤ pdv lo hi a T hi →
      ∃ vf adj, midFlat T ds lo hi a = some (some (vf, adj)) ∧ Geo lo hi a T vf adj ∧
        |pdv lo hi a T vf + 2 * adj - ds| ≤ 1 ∧ lo ≤ vf ∧ vf ≤ hi ∧ adj ≤ 0) ∧
    ((ds < pdv lo hi a T lo ∨ pdv lo hi a T hi < ds) → hi - lo < a * T →
      midFlat T ds lo hi a = some none) := by
  rcases hle.lt_or_eq with hlt | rfl
  · rcases hD.lt_or_eq with hD | hD
    · obtain ⟨ta, ρ, hta, hr, hra, rfl⟩ : ∃ ta ρ, 0 ≤ ta ∧ 0 ≤ ρ ∧ ρ < a ∧
          hi = lo + a * ta + ρ + 1 := by
        refine ⟨(hi - lo - 1) / a, (hi - lo - 1) % a, Int.ediv_nonneg (by omega) ha.le,
          Int.emod_nonneg _ ha.ne', Int.emod_lt_of_pos _ ha, ?_⟩
        have := Int.mul_ediv_add_emod (hi - lo - 1) a
        omega
      constructor
      · intro h1 h2
        exact midFlat_ok ha hta hr hra (by omega) h1 h2
      · intro h _
        rw [midFlat_eval ha hta hr hra (by omega) rfl rfl, if_pos]
        have Plo := pv1 (lo := lo) (T := T) (ta := ta) (t := 0) (q := ρ + 1) ha hra le_rfl hta
          (by omega) le_rfl
        rw [show lo + a * 0 + ρ + 1 - (ρ + 1) = lo by ring] at Plo
        have Phi := pv1 (lo := lo) (T := T) (ta := ta) (t := ta) (q := 0) ha hra hta le_rfl
          le_rfl (by omega)
        rw [show lo + a * ta + ρ + 1 - 0 = lo + a * ta + ρ + 1 by ring] at Phi
        rw [Plo, Phi] at h
        simp only [mul_zero, zero_mul, zero_add, sub_zero] at h
        omega
    · obtain ⟨e1, e2, e3⟩ := midFlat_tight (ds := ds) ha hT hD
      constructor
      · intro h1 h2
        have : a ≤ a * T := by nlinarith
        rw [e3 lo le_rfl hle] at h1
        rw [e3 hi hle le_rfl] at h2
        refine ⟨_, _, e1, e2, ?_, by omega, by omega, le_rfl⟩
        rw [abs_le]; omega
      · intro _ h; omega
  · have hp : pdv lo lo a T lo = 2 * lo * T := by simp [pdv, gg_zero ha]
    rw [midFlat_same ha hT, hp]
    constructor
    · intro h1 h2
      rw [if_pos (by omega)]
      refine ⟨lo, 0, rfl, Or.inl ⟨rfl, by simp [rt_zero ha]; omega⟩, ?_, le_rfl, le_rfl, le_rfl⟩
      rw [hp, abs_le]; omega
    · intro h _
      rw [if_neg (by omega)]

end
end StepperPaths.IntegerCurve
