import Verif.Proof.IntegerCurve.Step

/-! Monotonicity of the distance in the flat velocity. -/

namespace StepperPaths.IntegerCurve

theorem rt_mono {a x y : Int} (ha : 0 < a) (h : |x| ≤ |y|) : rt a x ≤ rt a y := by
  rw [rt_le_iff ha]
  exact h.trans (rt_bounds ha y).2

theorem pdv_mono {v0 vn a T x y : Int} (ha : 0 < a) (hxy : x ≤ y)
    (h : ∀ z, x ≤ z → z < y → 0 ≤ flatN v0 vn a T z) : pdv v0 vn a T x ≤ pdv v0 vn a T y := by
  induction y, hxy using Int.leInduction with
  | base => exact le_rfl
  | succ y hy ih =>
    have h1 := ih (fun z hz hz' => h z hz (by omega))
    have h2 := h y hy (by omega)
    rw [pdv_succ ha]; omega

/-- Above both end velocities every step counts as long as the ramps fit. -/
theorem flatN_pos_above {v0 vn a T x M : Int} (ha : 0 < a) (h0 : v0 ≤ x) (hn : vn ≤ x) (hx : x < M)
    (hM : rt a (M - v0) + rt a (M - vn) ≤ T) : 1 ≤ flatN v0 vn a T x := by
  have r1 := rt_succ ha (d := x - v0) (by omega)
  have r2 := rt_succ ha (d := x - vn) (by omega)
  have m1 := rt_mono ha (x := x - v0 + 1) (y := M - v0)
    (by rw [abs_of_nonneg (by omega), abs_of_nonneg (by omega)]; omega)
  have m2 := rt_mono ha (x := x - vn + 1) (y := M - vn)
    (by rw [abs_of_nonneg (by omega), abs_of_nonneg (by omega)]; omega)
  unfold flatN
  omega

theorem flatN_pos_below {v0 vn a T x m : Int} (ha : 0 < a) (h0 : x < v0) (hn : x < vn) (hx : m ≤ x)
    (hm : rt a (m - v0) + rt a (m - vn) ≤ T) : 1 ≤ flatN v0 vn a T x := by
  rw [← flatN_neg]
  apply flatN_pos_above ha (M := -m) <;> try omega
  rw [show -m - -v0 = -(m - v0) by ring, show -m - -vn = -(m - vn) by ring, rt_neg, rt_neg]
  exact hm

theorem flatN_nonneg_mid {v0 vn a T x : Int} (ha : 0 < a) (h0 : v0 ≤ x) (hn : x < vn)
    (h : vn - v0 ≤ a * T) : 0 ≤ flatN v0 vn a T x := by
  have f1 := fl_bounds ha (d := x - v0) (by omega)
  have f2 := fl_bounds_neg ha (d := x - vn) (by omega)
  unfold flatN
  by_contra hc
  have : T ≤ fl a (x - v0) + fl a (x - vn) := by omega
  have := mul_le_mul_of_nonneg_left this ha.le
  rw [mul_add] at this
  omega

/-- The ramps up to `hi` and down to `lo` fit around every velocity in between. -/
theorem flatN_nonneg {v0 vn a T x lo hi : Int} (ha : 0 < a) (hD : |v0 - vn| ≤ a * T)
    (hlo : rt a (lo - v0) + rt a (lo - vn) ≤ T) (hhi : rt a (hi - v0) + rt a (hi - vn) ≤ T)
    (h1 : lo ≤ x) (h2 : x < hi) : 0 ≤ flatN v0 vn a T x := by
  rw [abs_le] at hD
  by_cases ha1 : v0 ≤ x
  · by_cases ha2 : vn ≤ x
    · have := flatN_pos_above ha ha1 ha2 h2 hhi; omega
    · exact flatN_nonneg_mid ha ha1 (by omega) (by omega)
  · by_cases ha2 : vn ≤ x
    · rw [flatN_comm]; exact flatN_nonneg_mid ha ha2 (by omega) (by omega)
    · have := flatN_pos_below ha (x := x) (v0 := v0) (vn := vn) (by omega) (by omega) h1 hlo
      omega

theorem pdv_mono_range {v0 vn a T x y lo hi : Int} (ha : 0 < a) (hD : |v0 - vn| ≤ a * T)
    (hlo : rt a (lo - v0) + rt a (lo - vn) ≤ T) (hhi : rt a (hi - v0) + rt a (hi - vn) ≤ T)
    (h1 : lo ≤ x) (hxy : x ≤ y) (h2 : y ≤ hi) : pdv v0 vn a T x ≤ pdv v0 vn a T y :=
  pdv_mono ha hxy (fun _ hz hz' => flatN_nonneg ha hD hlo hhi (by omega) (by omega))

/-- There is a peak velocity from which the distance is large enough. -/
def HiOK (v0 vn a T ds : Int) : Prop :=
  ∃ M, v0 ≤ M ∧ vn ≤ M ∧ rt a (M - v0) + rt a (M - vn) ≤ T ∧ ds ≤ pdv v0 vn a T M

/-- There is a valley velocity from which the distance is small enough. -/
def LoOK (v0 vn a T ds : Int) : Prop :=
  ∃ m, m ≤ v0 ∧ m ≤ vn ∧ rt a (m - v0) + rt a (m - vn) ≤ T ∧ pdv v0 vn a T m ≤ ds

theorem loOK_of_neg {v0 vn a T ds : Int} (ha : 0 < a) (h : HiOK (-v0) (-vn) a T (-ds)) :
    LoOK v0 vn a T ds := by
  obtain ⟨M, h1, h2, h3, h4⟩ := h
  refine ⟨-M, by omega, by omega, ?_, ?_⟩
  · rw [show M - -v0 = -(-M - v0) by ring, show M - -vn = -(-M - vn) by ring, rt_neg, rt_neg] at h3
    exact h3
  · have := pdv_neg ha v0 vn T (-M)
    rw [neg_neg] at this
    omega

theorem HiOK.swap {v0 vn a T ds : Int} (h : HiOK v0 vn a T ds) : HiOK vn v0 a T ds := by
  obtain ⟨M, h1, h2, h3, h4⟩ := h
  exact ⟨M, h2, h1, by omega, by rw [pdv_comm]; exact h4⟩

theorem LoOK.swap {v0 vn a T ds : Int} (h : LoOK v0 vn a T ds) : LoOK vn v0 a T ds := by
  obtain ⟨M, h1, h2, h3, h4⟩ := h
  exact ⟨M, h2, h1, by omega, by rw [pdv_comm]; exact h4⟩

theorem Geo.swap {v0 vn a T vf adj : Int} (h : Geo v0 vn a T vf adj) : Geo vn v0 a T vf adj := by
  unfold Geo at *
  rw [flatN_comm vn v0, flatN_comm vn v0]
  rcases h with h | h | h
  · left; omega
  · right; left; exact ⟨h.1, h.2.1, h.2.2.2, h.2.2.1⟩
  · right; right; exact ⟨h.1, h.2.1, h.2.2.symm⟩

end StepperPaths.IntegerCurve
