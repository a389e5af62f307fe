import Verif.Proof.IntegerCurve.Mid

/-! `adjust_curve` finds a path whenever there is one. -/

namespace StepperPaths.IntegerCurve

theorem tight_hi {v0 vn a T ds : Int} (ha : 0 < a) (h : a * (T - 1) < vn - v0) (hle : v0 ≤ vn)
    (H : HiOK v0 vn a T ds) : ds ≤ pdv v0 vn a T vn := by
  obtain ⟨M, h1, h2, h3, h4⟩ := H
  have r0 := rt_nonneg ha (M - vn)
  have : T ≤ rt a (M - v0) := by
    by_contra hc
    have := (rt_le_iff ha (d := M - v0) (t := T - 1)).1 (by omega)
    rw [abs_of_nonneg (by omega)] at this
    omega
  have hM := (rt_le_iff ha (d := M - vn) (t := 0)).1 (by omega)
  rw [abs_of_nonneg (by omega)] at hM
  have : M = vn := by omega
  subst this; exact h4

theorem tight_lo {v0 vn a T ds : Int} (ha : 0 < a) (h : a * (T - 1) < vn - v0) (hle : v0 ≤ vn)
    (H : LoOK v0 vn a T ds) : pdv v0 vn a T v0 ≤ ds := by
  obtain ⟨m, h1, h2, h3, h4⟩ := H
  have r0 := rt_nonneg ha (m - v0)
  have : T ≤ rt a (m - vn) := by
    by_contra hc
    have := (rt_le_iff ha (d := m - vn) (t := T - 1)).1 (by omega)
    rw [abs_of_nonpos (by omega)] at this
    omega
  have hM := (rt_le_iff ha (d := m - v0) (t := 0)).1 (by omega)
  rw [abs_of_nonpos (by omega)] at hM
  have : m = v0 := by omega
  subst this; exact h4

/-- `peakVel` is the largest flat velocity for which the ramps fit, `valleyVel` the
smallest. -/
theorem apex {v0 vn a T tl th : Int} (ha : 0 < a) (hT : 2 ≤ T) (hle : v0 ≤ vn)
    (hD : vn - v0 ≤ a * (T - 1)) (htl : tl = (T * a - (v0 - vn)) / (2 * a))
    (hth : th = (T * a - (vn - v0)) / (2 * a)) :
    (tl + th ≤ T ∧ T - 1 ≤ tl + th) ∧ 1 ≤ tl ∧ 0 ≤ th ∧
    (vn ≤ peakVel v0 vn a tl th ∧
      rt a (peakVel v0 vn a tl th - v0) + rt a (peakVel v0 vn a tl th - vn) ≤ T ∧
      ∀ M, v0 ≤ M → vn ≤ M → rt a (M - v0) + rt a (M - vn) ≤ T → M ≤ peakVel v0 vn a tl th) ∧
    (valleyVel v0 vn a tl th ≤ v0 ∧
      rt a (valleyVel v0 vn a tl th - v0) + rt a (valleyVel v0 vn a tl th - vn) ≤ T ∧
      ∀ m, m ≤ v0 → m ≤ vn → rt a (m - v0) + rt a (m - vn) ≤ T → valleyVel v0 vn a tl th ≤ m) := by
  have ha2 : 0 < 2 * a := by omega
  have eT : a * (T - 1) = a * T - a := by ring
  have eT2 : T * a = a * T := by ring
  have l1 : 2 * a * tl ≤ T * a - (v0 - vn) := by rw [htl]; exact Int.mul_ediv_self_le ha2.ne'
  have l2 : T * a - (v0 - vn) < 2 * a * tl + 2 * a := by
    rw [htl]; exact Int.lt_mul_ediv_self_add ha2
  have g1 : 2 * a * th ≤ T * a - (vn - v0) := by rw [hth]; exact Int.mul_ediv_self_le ha2.ne'
  have g2 : T * a - (vn - v0) < 2 * a * th + 2 * a := by
    rw [hth]; exact Int.lt_mul_ediv_self_add ha2
  have haT : 2 * a ≤ a * T := by nlinarith
  have f1 : tl + th ≤ T := by
    by_contra hc
    have := mul_le_mul_of_nonneg_left (show T + 1 ≤ tl + th by omega) ha2.le
    have e : 2 * a * (T + 1) = 2 * (a * T) + 2 * a := by ring
    have e2 : 2 * a * (tl + th) = 2 * a * tl + 2 * a * th := by ring
    omega
  have f2 : T - 1 ≤ tl + th := by
    by_contra hc
    have := mul_le_mul_of_nonneg_left (show tl + th ≤ T - 2 by omega) ha2.le
    have e : 2 * a * (T - 2) = 2 * (a * T) - 4 * a := by ring
    have e2 : 2 * a * (tl + th) = 2 * a * tl + 2 * a * th := by ring
    omega
  have tl1 : 1 ≤ tl := by
    by_contra hc
    have := mul_le_mul_of_nonneg_left (show tl ≤ 0 by omega) ha2.le
    simp only [mul_zero] at this
    omega
  have th0 : 0 ≤ th := by
    rw [hth]
    exact Int.ediv_nonneg (by omega) ha2.le
  have c1 : tl * a = a * tl := by ring
  have c2 : th * a = a * th := by ring
  have d1 : a * (T - tl) = a * T - a * tl := by ring
  have d2 : a * (T - th) = a * T - a * th := by ring
  have d3 : 2 * a * tl = 2 * (a * tl) := by ring
  have d4 : 2 * a * th = 2 * (a * th) := by ring
  have p1 : 0 ≤ a * tl := mul_nonneg ha.le (by omega)
  have p2 : 0 ≤ a * th := mul_nonneg ha.le th0
  have z : th = 0 → vn - v0 ≤ a * tl := by
    intro hz
    have := mul_le_mul_of_nonneg_left (show T - 1 ≤ tl by omega) ha.le
    omega
  refine ⟨⟨f1, f2⟩, tl1, th0, ?_, ?_⟩
  · have hpk : (peakVel v0 vn a tl th = v0 + a * tl ∨ peakVel v0 vn a tl th = vn + a * th) ∧
        vn ≤ peakVel v0 vn a tl th ∧ v0 + a * tl ≤ peakVel v0 vn a tl th ∧
        vn + a * th ≤ peakVel v0 vn a tl th := by
      unfold peakVel
      rw [c1, c2]
      by_cases hz : th = 0
      · have := z hz
        have hz' : a * th = 0 := by rw [hz, mul_zero]
        rw [if_pos hz]
        omega
      · rw [if_neg hz, if_neg (show ¬ tl = 0 by omega)]
        omega
    generalize peakVel v0 vn a tl th = P at hpk
    obtain ⟨hP, hP1, hP2, hP3⟩ := hpk
    refine ⟨hP1, ?_, ?_⟩
    · rcases hP with hP | hP
      · have r1 := rt_le_of (t := tl) (d := P - v0) ha (by omega) (by omega)
        have r2 := rt_le_of (t := T - tl) (d := P - vn) ha (by omega) (by omega)
        omega
      · have r1 := rt_le_of (t := T - th) (d := P - v0) ha (by omega) (by omega)
        have r2 := rt_le_of (t := th) (d := P - vn) ha (by omega) (by omega)
        omega
    · intro M m1 m2 m3
      have b1 := (rt_bounds ha (M - v0)).2
      have b2 := (rt_bounds ha (M - vn)).2
      rw [abs_of_nonneg (by omega)] at b1 b2
      by_cases ht : rt a (M - v0) ≤ tl
      · have := mul_le_mul_of_nonneg_left ht ha.le
        omega
      · have := mul_le_mul_of_nonneg_left (show rt a (M - vn) ≤ th by omega) ha.le
        omega
  · have hpk : (valleyVel v0 vn a tl th = vn - a * tl ∨ valleyVel v0 vn a tl th = v0 - a * th) ∧
        valleyVel v0 vn a tl th ≤ v0 ∧ valleyVel v0 vn a tl th ≤ vn - a * tl ∧
        valleyVel v0 vn a tl th ≤ v0 - a * th := by
      unfold valleyVel
      rw [show tl * -a = -(a * tl) by ring, show th * -a = -(a * th) by ring]
      by_cases hz : th = 0
      · have := z hz
        have hz' : a * th = 0 := by rw [hz, mul_zero]
        rw [if_pos hz]
        omega
      · rw [if_neg hz, if_neg (show ¬ tl = 0 by omega)]
        omega
    generalize valleyVel v0 vn a tl th = P at hpk
    obtain ⟨hP, hP1, hP2, hP3⟩ := hpk
    refine ⟨hP1, ?_, ?_⟩
    · rcases hP with hP | hP
      · have r1 := rt_le_of (t := T - tl) (d := P - v0) ha (by omega) (by omega)
        have r2 := rt_le_of (t := tl) (d := P - vn) ha (by omega) (by omega)
        omega
      · have r1 := rt_le_of (t := th) (d := P - v0) ha (by omega) (by omega)
        have r2 := rt_le_of (t := T - th) (d := P - vn) ha (by omega) (by omega)
        omega
    · intro M m1 m2 m3
      have b1 := (rt_bounds ha (M - v0)).2
      have b2 := (rt_bounds ha (M - vn)).2
      rw [abs_of_nonpos (by omega)] at b1 b2
      by_cases ht : rt a (M - vn) ≤ tl
      · have := mul_le_mul_of_nonneg_left ht ha.le
        omega
      · have := mul_le_mul_of_nonneg_left (show rt a (M - v0) ≤ th by omega) ha.le
        omega

theorem peakVel_swap {v0 vn a tl th : Int} (h : 1 ≤ tl) :
    peakVel vn v0 a th tl = peakVel v0 vn a tl th := by
  unfold peakVel
  rw [if_neg (show ¬ tl = 0 by omega)]
  by_cases hz : th = 0
  · rw [if_pos hz, if_pos hz]
  · rw [if_neg hz, if_neg hz, if_neg (show ¬ tl = 0 by omega), max_comm]

theorem valleyVel_swap {v0 vn a tl th : Int} (h : 1 ≤ tl) :
    valleyVel vn v0 a th tl = valleyVel v0 vn a tl th := by
  unfold valleyVel
  rw [if_neg (show ¬ tl = 0 by omega)]
  by_cases hz : th = 0
  · rw [if_pos hz, if_pos hz]
  · rw [if_neg hz, if_neg hz, if_neg (show ¬ tl = 0 by omega), min_comm]

theorem tdiv_mid {mn mx : Int} (h : 2 ≤ mx - mn) :
    mn < Int.tdiv (mx + mn) 2 ∧ Int.tdiv (mx + mn) 2 < mx := by
  rcases le_total 0 (mx + mn) with hs | hs
  · rw [Int.tdiv_eq_ediv_of_nonneg hs]; omega
  · have : (mx + mn).tdiv 2 = -((-(mx + mn)) / 2) := by
      rw [← Int.tdiv_eq_ediv_of_nonneg (by omega), Int.neg_tdiv]; omega
    omega

/-- The binary search keeps the distance enclosed and ends with neighbours. -/
theorem searchFlat_spec {T ds v0 vn a : Int} (ha : 0 < a) (n : Nat) :
    ∀ mn mx, mn ≤ mx → (mx - mn).toNat ≤ n → pdv v0 vn a T mn ≤ ds → ds ≤ pdv v0 vn a T mx →
    ∃ mn' mx', searchFlat T ds v0 vn a mn mx (pdv v0 vn a T mn) (pdv v0 vn a T mx)
        = some (mn', mx', pdv v0 vn a T mn', pdv v0 vn a T mx') ∧
      mn ≤ mn' ∧ mn' ≤ mx' ∧ mx' ≤ mx ∧ mx' ≤ mn' + 1 ∧
      pdv v0 vn a T mn' ≤ ds ∧ ds ≤ pdv v0 vn a T mx' := by
  induction n with
  | zero =>
    intro mn mx h1 h2 h3 h4
    have : mx - mn ≤ 1 := by omega
    rw [searchFlat, if_pos this]
    exact ⟨mn, mx, rfl, le_rfl, h1, le_rfl, by omega, h3, h4⟩
  | succ n ih =>
    intro mn mx h1 h2 h3 h4
    rw [searchFlat]
    by_cases hd : mx - mn ≤ 1
    · rw [if_pos hd]
      exact ⟨mn, mx, rfl, le_rfl, h1, le_rfl, by omega, h3, h4⟩
    · obtain ⟨m1, m2⟩ := tdiv_mid (mn := mn) (mx := mx) (by omega)
      rw [if_neg hd]
      generalize Int.tdiv (mx + mn) 2 = mid at m1 m2
      simp only [pathDistance_eq ha, Option.bind_eq_bind, Option.bind_some]
      by_cases hs : pdv v0 vn a T mid ≥ ds
      · rw [if_pos hs]
        obtain ⟨mn', mx', e, i1, i2, i3, i4⟩ := ih mn mid (by omega) (by omega) h3 hs
        exact ⟨mn', mx', e, i1, i2, by omega, i4⟩
      · rw [if_neg hs]
        obtain ⟨mn', mx', e, i1, i2, i3, i4⟩ := ih mid mx (by omega) (by omega) (by omega) h4
        exact ⟨mn', mx', e, by omega, i2, i3, i4⟩

/-- Paths of one tick. -/
theorem pdv_one {v0 vn a : Int} (ha : 0 < a) (hD : |v0 - vn| ≤ a) :
    pdv v0 vn a 1 v0 = v0 + vn ∧ pdv v0 vn a 1 vn = v0 + vn := by
  rw [abs_le] at hD
  unfold pdv
  have e1 : gg a (v0 - vn) = vn - v0 := by
    rcases le_total vn v0 with h | h
    · have := gg_eval (t := 1) (e := a - (v0 - vn)) ha le_rfl (by omega) (by omega)
      rw [show a * 1 - (a - (v0 - vn)) = v0 - vn by ring] at this
      rw [this]; ring
    · have := gg_eval (t := 1) (e := a - (vn - v0)) ha le_rfl (by omega) (by omega)
      rw [show a * 1 - (a - (vn - v0)) = -(v0 - vn) by ring, gg_neg ha] at this
      linarith
  have e2 : gg a (vn - v0) = v0 - vn := by
    rw [show vn - v0 = -(v0 - vn) by ring, gg_neg ha, e1]; ring
  rw [sub_self, sub_self, gg_zero ha, e1, e2]
  constructor <;> ring

theorem hi_one {v0 vn a ds : Int} (ha : 0 < a) (hD : |v0 - vn| ≤ a)
    (H : HiOK v0 vn a 1 ds) : ds ≤ v0 + vn := by
  obtain ⟨M, h1, h2, h3, h4⟩ := H
  obtain ⟨e1, e2⟩ := pdv_one ha hD
  have r0 := rt_nonneg ha (M - v0)
  have r1 := rt_nonneg ha (M - vn)
  by_cases hz : rt a (M - v0) ≤ 0
  · have := (rt_le_iff ha).1 hz
    rw [abs_of_nonneg (by omega)] at this
    have : M = v0 := by omega
    subst this; omega
  · have := (rt_le_iff ha (t := 0) (d := M - vn)).1 (by omega)
    rw [abs_of_nonneg (by omega)] at this
    have : M = vn := by omega
    subst this; omega

theorem lo_one {v0 vn a ds : Int} (ha : 0 < a) (hD : |v0 - vn| ≤ a)
    (H : LoOK v0 vn a 1 ds) : v0 + vn ≤ ds := by
  obtain ⟨M, h1, h2, h3, h4⟩ := H
  obtain ⟨e1, e2⟩ := pdv_one ha hD
  have r0 := rt_nonneg ha (M - v0)
  have r1 := rt_nonneg ha (M - vn)
  by_cases hz : rt a (M - v0) ≤ 0
  · have := (rt_le_iff ha).1 hz
    rw [abs_of_nonpos (by omega)] at this
    have : M = v0 := by omega
    subst this; omega
  · have := (rt_le_iff ha (t := 0) (d := M - vn)).1 (by omega)
    rw [abs_of_nonpos (by omega)] at this
    have : M = vn := by omega
    subst this; omega

/-- The selection after the binary search gives a good path. -/
theorem pick_good {T ds v0 vn a mn mx P V : Int} (ha : 0 < a) (hD : |v0 - vn| ≤ a * T)
    (hP : rt a (P - v0) + rt a (P - vn) ≤ T) (hP0 : v0 ≤ P ∧ vn ≤ P)
    (hV : rt a (V - v0) + rt a (V - vn) ≤ T) (hV0 : V ≤ v0 ∧ V ≤ vn)
    (hmn : V ≤ mn) (hle : mn ≤ mx) (hmx : mx ≤ P) (h1 : mx ≤ mn + 1)
    (hs1 : pdv v0 vn a T mn ≤ ds) (hs2 : ds ≤ pdv v0 vn a T mx)
    (hout : ds < pdv v0 vn a T (min v0 vn) ∨ pdv v0 vn a T (max v0 vn) < ds) :
    Geo v0 vn a T (pickFlat ds v0 vn mn mx (pdv v0 vn a T mn) (pdv v0 vn a T mx)).1
      (pickFlat ds v0 vn mn mx (pdv v0 vn a T mn) (pdv v0 vn a T mx)).2 ∧
    |pdv v0 vn a T (pickFlat ds v0 vn mn mx (pdv v0 vn a T mn) (pdv v0 vn a T mx)).1
      + 2 * (pickFlat ds v0 vn mn mx (pdv v0 vn a T mn) (pdv v0 vn a T mx)).2 - ds| ≤ 1 := by
  have mono : ∀ x y, V ≤ x → x ≤ y → y ≤ P → pdv v0 vn a T x ≤ pdv v0 vn a T y :=
    fun x y i1 i2 i3 => pdv_mono_range ha hD hV hP i1 i2 i3
  -- ramps fit outside the middle
  have fitHi : ∀ x, max v0 vn ≤ x → x ≤ P → rt a (x - v0) + rt a (x - vn) ≤ T := by
    intro x i1 i2
    have m1 := rt_mono ha (x := x - v0) (y := P - v0)
      (by rw [abs_of_nonneg (by omega), abs_of_nonneg (by omega)]; omega)
    have m2 := rt_mono ha (x := x - vn) (y := P - vn)
      (by rw [abs_of_nonneg (by omega), abs_of_nonneg (by omega)]; omega)
    omega
  have fitLo : ∀ x, x ≤ min v0 vn → V ≤ x → rt a (x - v0) + rt a (x - vn) ≤ T := by
    intro x i1 i2
    have m1 := rt_mono ha (x := x - v0) (y := V - v0)
      (by rw [abs_of_nonpos (by omega), abs_of_nonpos (by omega)]; omega)
    have m2 := rt_mono ha (x := x - vn) (y := V - vn)
      (by rw [abs_of_nonpos (by omega), abs_of_nonpos (by omega)]; omega)
    omega
  unfold pickFlat
  rcases hout with hout | hout
  · -- below the valley of the end velocities
    have hlt : mn < min v0 vn := by
      by_contra hc
      have := mono (min v0 vn) mn (by omega) (by omega) (by omega)
      omega
    have hmxlo : mx ≤ min v0 vn := by omega
    by_cases e1 : pdv v0 vn a T mx = ds
    · simp only [if_pos e1]
      exact ⟨Or.inl ⟨rfl, fitLo mx hmxlo (by omega)⟩, by rw [abs_le]; omega⟩
    · simp only [if_neg e1]
      by_cases e2 : pdv v0 vn a T mn = ds
      · simp only [if_pos e2]
        exact ⟨Or.inl ⟨rfl, fitLo mn (by omega) (by omega)⟩, by rw [abs_le]; omega⟩
      · simp only [if_neg e2, if_pos (show v0 > mn ∨ vn > mn by omega)]
        have hmx' : mx = mn + 1 := by
          rcases (show mx = mn ∨ mx = mn + 1 by omega) with h | h
          · subst h; omega
          · exact h
        subst hmx'
        rw [pdv_succ ha] at hs2 e1
        rw [Int.tdiv_eq_ediv_of_nonneg (by omega)]
        constructor
        · by_cases h0 : (ds - pdv v0 vn a T mn) / 2 = 0
          · exact Or.inl ⟨h0, fitLo mn (by omega) (by omega)⟩
          · exact Or.inr (Or.inl ⟨by omega, by omega, by omega, by omega⟩)
        · rw [abs_le]; omega
  · have hgt : max v0 vn < mx := by
      by_contra hc
      have := mono mx (max v0 vn) (by omega) (by omega) (by omega)
      omega
    have hmnhi : max v0 vn ≤ mn := by omega
    by_cases e1 : pdv v0 vn a T mx = ds
    · simp only [if_pos e1]
      exact ⟨Or.inl ⟨rfl, fitHi mx (by omega) (by omega)⟩, by rw [abs_le]; omega⟩
    · simp only [if_neg e1]
      by_cases e2 : pdv v0 vn a T mn = ds
      · simp only [if_pos e2]
        exact ⟨Or.inl ⟨rfl, fitHi mn (by omega) (by omega)⟩, by rw [abs_le]; omega⟩
      · simp only [if_neg e2, if_neg (show ¬ (v0 > mn ∨ vn > mn) by omega)]
        have hmx' : mx = mn + 1 := by
          rcases (show mx = mn ∨ mx = mn + 1 by omega) with h | h
          · subst h; omega
          · exact h
        subst hmx'
        have hsucc := pdv_succ (v0 := v0) (vn := vn) (T := T) ha mn
        obtain ⟨adj, a1, a2, a3, a4⟩ := adj_facts (s := pdv v0 vn a T (mn + 1)) (ds := ds)
          (w := flatN v0 vn a T mn) (by omega) (by omega)
        rw [a1]
        refine ⟨?_, a2⟩
        rcases a3.lt_or_eq with h | h
        · right; right
          refine ⟨h, ?_, by omega⟩
          rw [show mn + 1 - 1 = mn by ring]; exact a4
        · left
          exact ⟨h, fitHi (mn + 1) (by omega) hmx⟩

/-- `adjust_curve` succeeds and hits the distance whenever the distance is between
that of some valley and that of some peak. -/
theorem adjust_ok {T ds v0 vn a : Int} (ha : 0 < a) (hT : 1 ≤ T) (hD : |v0 - vn| ≤ a * T)
    (hhi : HiOK v0 vn a T ds) (hlo : LoOK v0 vn a T ds) :
    ∃ vf adj, adjustCurve T ds v0 vn a = some ⟨v0, vn, a, vf, T, adj⟩ ∧
      Geo v0 vn a T vf adj ∧ |pdv v0 vn a T vf + 2 * adj - ds| ≤ 1 := by
  unfold adjustCurve
  by_cases hT1 : T = 1
  · subst hT1
    rw [mul_one] at hD
    have h1 := hi_one ha hD hhi
    have h2 := lo_one ha hD hlo
    refine ⟨v0, 0, ?_, Or.inl ⟨rfl, ?_⟩, ?_⟩
    · rw [if_pos rfl]
      unfold cassert
      rw [if_pos (by rw [abs_le]; omega)]
      rfl
    · have := (rt_le_iff ha (d := v0 - vn) (t := 1)).2 (by omega)
      rw [sub_self, rt_zero ha]; omega
    · rw [(pdv_one ha hD).1, abs_le]; omega
  rw [if_neg hT1]
  have hT2 : 2 ≤ T := by omega
  have hDl := hD
  rw [abs_le] at hDl
  have eT : a * (T - 1) = a * T - a := by ring
  by_cases hin : pdv v0 vn a T (min v0 vn) ≤ ds ∧ ds ≤ pdv v0 vn a T (max v0 vn)
  · -- flat velocity between the end velocities
    by_cases hle : v0 ≤ vn
    · rw [min_eq_left hle, max_eq_right hle] at hin
      obtain ⟨vf, adj, e1, e2, e3, -⟩ :=
        (midFlat_spec (T := T) (ds := ds) ha hT hle (by omega)).1 hin.1 hin.2
      refine ⟨vf, adj, ?_, e2, e3⟩
      simp [adjustCurveMid, hle, e1]
    · have hle' : vn ≤ v0 := by omega
      rw [min_eq_right hle', max_eq_left hle', pdv_comm v0 vn, pdv_comm v0 vn] at hin
      obtain ⟨vf, adj, e1, e2, e3, -⟩ :=
        (midFlat_spec (T := T) (ds := ds) ha hT hle' (by omega)).1 hin.1 hin.2
      refine ⟨vf, adj, ?_, e2.swap, by rw [pdv_comm v0 vn]; exact e3⟩
      simp [adjustCurveMid, hle, e1]
  · have hout : ds < pdv v0 vn a T (min v0 vn) ∨ pdv v0 vn a T (max v0 vn) < ds := by omega
    -- mid finds nothing, and the apex facts hold
    have main : adjustCurveMid T ds v0 vn a = some none ∧
        (let tl := (T * a - (v0 - vn)) / (2 * a)
         let th := (T * a - (vn - v0)) / (2 * a)
         (tl + th ≤ T ∧ T - 1 ≤ tl + th) ∧
         (v0 ≤ peakVel v0 vn a tl th ∧ vn ≤ peakVel v0 vn a tl th) ∧
         rt a (peakVel v0 vn a tl th - v0) + rt a (peakVel v0 vn a tl th - vn) ≤ T ∧
         (∀ M, v0 ≤ M → vn ≤ M → rt a (M - v0) + rt a (M - vn) ≤ T →
            M ≤ peakVel v0 vn a tl th) ∧
         (valleyVel v0 vn a tl th ≤ v0 ∧ valleyVel v0 vn a tl th ≤ vn) ∧
         rt a (valleyVel v0 vn a tl th - v0) + rt a (valleyVel v0 vn a tl th - vn) ≤ T ∧
         (∀ m, m ≤ v0 → m ≤ vn → rt a (m - v0) + rt a (m - vn) ≤ T →
            valleyVel v0 vn a tl th ≤ m)) := by
      by_cases hle : v0 ≤ vn
      · rw [min_eq_left hle, max_eq_right hle] at hout
        have hs : vn - v0 ≤ a * (T - 1) := by
          by_contra hc
          have := tight_hi ha (by omega) hle hhi
          have := tight_lo ha (by omega) hle hlo
          omega
        constructor
        · have := (midFlat_spec (T := T) (ds := ds) ha hT hle (by omega)).2 hout (by omega)
          simp [adjustCurveMid, hle, this]
        · obtain ⟨i1, i2, i3, ⟨i4, i5, i6⟩, i7, i8, i9⟩ := apex ha hT2 hle hs rfl rfl
          exact ⟨i1, ⟨by omega, i4⟩, i5, i6, ⟨i7, by omega⟩, i8, i9⟩
      · have hle' : vn ≤ v0 := by omega
        rw [min_eq_right hle', max_eq_left hle'] at hout
        have hs : v0 - vn ≤ a * (T - 1) := by
          by_contra hc
          have := tight_hi ha (by omega) hle' hhi.swap
          have := tight_lo ha (by omega) hle' hlo.swap
          rw [pdv_comm v0 vn, pdv_comm v0 vn] at hout
          omega
        constructor
        · rw [pdv_comm v0 vn, pdv_comm v0 vn] at hout
          have := (midFlat_spec (T := T) (ds := ds) ha hT hle' (by omega)).2 hout (by omega)
          simp [adjustCurveMid, hle, this]
        · obtain ⟨i1, i2, i3, ⟨i4, i5, i6⟩, i7, i8, i9⟩ := apex ha hT2 hle' hs rfl rfl
          simp only
          rw [← peakVel_swap i2] at i4 i5 i6
          rw [← valleyVel_swap i2] at i7 i8 i9
          refine ⟨by omega, ⟨i4, by omega⟩, by omega, ?_, ⟨by omega, i7⟩, by omega, ?_⟩
          · intro M m1 m2 m3
            exact i6 M m2 m1 (by omega)
          · intro M m1 m2 m3
            exact i9 M m2 m1 (by omega)
    obtain ⟨hmid, hap⟩ := main
    simp only at hap
    rw [hmid]
    have ha2 : 2 * a ≠ 0 := by omega
    have eTa : T * a = a * T := by ring
    simp only [cdiv, if_neg ha2, Option.bind_eq_bind, Option.bind_some,
      Int.tdiv_eq_ediv_of_nonneg (show 0 ≤ T * a - (v0 - vn) by omega),
      Int.tdiv_eq_ediv_of_nonneg (show 0 ≤ T * a - (vn - v0) by omega)]
    generalize (T * a - (v0 - vn)) / (2 * a) = tl at *
    generalize (T * a - (vn - v0)) / (2 * a) = th at *
    obtain ⟨⟨c1, c2⟩, hP0, hP, hPm, hV0, hV, hVm⟩ := hap
    generalize peakVel v0 vn a tl th = P at *
    generalize valleyVel v0 vn a tl th = V at *
    have hsP : ds ≤ pdv v0 vn a T P := by
      obtain ⟨M, m1, m2, m3, m4⟩ := hhi
      have := pdv_mono_range (x := M) (y := P) ha hD hV hP (by omega) (hPm M m1 m2 m3) le_rfl
      omega
    have hsV : pdv v0 vn a T V ≤ ds := by
      obtain ⟨M, m1, m2, m3, m4⟩ := hlo
      have := pdv_mono_range (x := V) (y := M) ha hD hV hP le_rfl (hVm M m1 m2 m3) (by omega)
      omega
    obtain ⟨mn, mx, e, b1, b2, b3, b4, b5, b6⟩ := searchFlat_spec (T := T) (v0 := v0) (vn := vn)
      (ds := ds) ha (P - V).toNat V P (by omega) le_rfl hsV hsP
    have hg := pick_good ha hD hP hP0 hV hV0 b1 b2 b3 b4 b5 b6 hout
    refine ⟨_, _, ?_, hg.1, hg.2⟩
    simp only [cassert, if_pos c1, if_pos (show tl + th ≥ T - 1 by omega),
      if_pos (show P ≥ V by omega), pathDistance_eq ha, Option.bind_some,
      if_pos (show pdv v0 vn a T P ≥ ds from hsP), if_pos hsV, e, Option.pure_def]

end StepperPaths.IntegerCurve
