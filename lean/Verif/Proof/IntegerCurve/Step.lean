import Verif.Proof.IntegerCurve.Ticks

/-! The step of the flat part always fits. -/

namespace StepperPaths.IntegerCurve

/-- The three kinds of path `adjust_curve` produces: no adjustment, a raised
valley, or a lowered hill. -/
def Geo (v0 vn a T vf adj : Int) : Prop :=
  (adj = 0 ∧ rt a (vf - v0) + rt a (vf - vn) ≤ T) ∨
  (0 < adj ∧ adj + 1 ≤ flatN v0 vn a T vf ∧ vf < v0 ∧ vf < vn) ∨
  (adj < 0 ∧ -adj + 1 ≤ flatN v0 vn a T (vf - 1) ∧ (v0 < vf ∨ vn < vf))

theorem rt_eq_of_nonneg {a e : Int} (ha : 0 < a) (h : 0 ≤ e) :
    rt a e = if Int.tmod e a = 0 then fl a e else fl a e + 1 := by
  rw [Int.tmod_eq_emod_of_nonneg h]
  have h1 := Int.emod_nonneg e ha.ne'
  have h2 := Int.emod_lt_of_pos e ha
  have h3 := Int.mul_ediv_add_emod e a
  have hf : fl a e = e / a := by unfold fl; rw [if_pos h]
  rw [hf]
  split
  · apply rt_eq ha <;> rw [abs_of_nonneg h] <;> omega
  · apply rt_eq ha <;> rw [abs_of_nonneg h] <;> rw [mul_add] <;> omega

theorem rt_eq_of_nonpos {a e : Int} (ha : 0 < a) (h : e ≤ 0) :
    rt a e = if Int.tmod e a = 0 then fl a (e - 1) else fl a (e - 1) + 1 := by
  have := rt_eq_of_nonneg ha (e := -e) (by omega)
  rw [rt_neg, Int.neg_tmod] at this
  rw [this, show e - 1 = -(-e) - 1 by ring, fl_neg]
  simp

theorem rt_pred_le {a : Int} (ha : 0 < a) (d : Int) : rt a d ≤ fl a (d - 1) + 1 := by
  rcases lt_or_ge 0 d with h | h
  · have := rt_succ ha (d := d - 1) (by omega)
    rw [show d - 1 + 1 = d by ring] at this
    omega
  · rw [rt_eq_of_nonpos ha h]; split <;> omega

theorem rt_eq_fl_of_pos {a d : Int} (ha : 0 < a) (h : 0 < d) : rt a d = fl a (d - 1) + 1 := by
  have := rt_succ ha (d := d - 1) (by omega)
  rwa [show d - 1 + 1 = d by ring] at this

theorem geo_step {p : DistancePath} (ha : 0 < p.amax)
    (h : Geo p.v0 p.vn p.amax p.tTotal p.vflat p.tAdjust) :
    ∃ vs ve ts, stepChoice p = some (vs, ve, ts) ∧ Fits p vs ve ts ∧
      (p.tAdjust = 0 → vs = p.vflat ∧ ve = p.vflat) ∧
      (0 < p.tAdjust → p.vflat ≤ vs ∧ vs ≤ p.vflat + 1 ∧ p.vflat ≤ ve ∧ ve ≤ p.vflat + 1) ∧
      (p.tAdjust < 0 → p.vflat - 1 ≤ vs ∧ vs ≤ p.vflat ∧ p.vflat - 1 ≤ ve ∧ ve ≤ p.vflat) := by
  obtain ⟨v0, vn, a, vf, T, adj⟩ := p
  simp only at ha h ⊢
  rcases h with ⟨rfl, hr⟩ | ⟨hadj, hN, h0, hn⟩ | ⟨hadj, hN, hv⟩
  · refine ⟨vf, vf, 0, ?_, ⟨?_, ?_, ?_, ?_, ?_, ?_⟩, ?_⟩
    · simp [stepChoice]
    · simp
    · simp
    · simpa using hr
    · simp; omega
    · simp; omega
    · simp only [flatDist, pdv, lt_irrefl, if_false]; ring
    · simp
  · -- raised valley
    have r1 := rt_of_neg ha (d := vf - v0) (by omega)
    have r4 := rt_eq_of_nonpos ha (e := vf + 1 - vn) (by omega)
    rw [show vf + 1 - vn - 1 = vf - vn by ring] at r4
    have g4 := gg_succ ha (vf - vn)
    rw [show vf - vn + 1 = vf + 1 - vn by ring] at g4
    unfold flatN at hN
    refine ⟨vf, vf + 1, if Int.tmod (vf + 1 - vn) a = 0 then -adj - 1 else -adj, ?_,
      ⟨?_, ?_, ?_, ?_, ?_, ?_⟩, ?_, ?_, ?_⟩
    · simp [stepChoice, hadj, hn, crem, ha.ne']
    · rw [abs_le]; omega
    · split <;> intro <;> omega
    · simp only; rw [r1, r4]; split <;> omega
    · simp only; rw [r1, r4, abs_le]; split <;> omega
    · simp only; rw [r1, r4]; split <;> omega
    · simp only [flatDist, pdv]
      rw [g4, r4]
      split
      · rw [if_neg (by omega), if_pos (by omega)]; ring
      · rw [if_neg (by omega), if_pos (by omega)]; ring
    · intro; omega
    · intro; omega
    · intro; omega
  · unfold flatN at hN
    by_cases hvn : vn < vf
    · -- lowered hill, step before the last ramp
      have r1 := rt_pred_le ha (vf - v0)
      rw [show vf - v0 - 1 = vf - 1 - v0 by ring] at r1
      have r4 := rt_eq_of_nonneg ha (e := vf - 1 - vn) (by omega)
      have g4 := gg_succ ha (vf - 1 - vn)
      rw [show vf - 1 - vn + 1 = vf - vn by ring] at g4
      refine ⟨vf, vf - 1, if Int.tmod (vf - 1 - vn) a = 0 then adj - 1 else adj, ?_,
        ⟨?_, ?_, ?_, ?_, ?_, ?_⟩, ?_, ?_, ?_⟩
      · simp [stepChoice, hadj, hadj.le, hvn, crem, ha.ne']
      · rw [abs_le]; omega
      · split <;> intro <;> omega
      · simp only; rw [r4]; split <;> omega
      · simp only; rw [r4, abs_le]; split <;> omega
      · simp only; rw [r4]; split <;> omega
      · simp only [flatDist, pdv]
        rw [g4, r4]
        by_cases hm : Int.tmod (vf - 1 - vn) a = 0
        · simp only [if_pos hm]; rw [if_neg (by omega), if_pos (by omega)]; ring
        · simp only [if_neg hm]; rw [if_neg (by omega), if_pos (by omega)]; ring
      · intro; omega
      · intro; omega
      · intro; omega
    · have hv0 : v0 < vf := by omega
      have r1 := rt_eq_of_nonneg ha (e := vf - 1 - v0) (by omega)
      have r4 := rt_pred_le ha (vf - vn)
      rw [show vf - vn - 1 = vf - 1 - vn by ring] at r4
      have g1 := gg_succ ha (vf - 1 - v0)
      rw [show vf - 1 - v0 + 1 = vf - v0 by ring] at g1
      refine ⟨vf - 1, vf, if Int.tmod (vf - 1 - v0) a = 0 then -adj + 1 else -adj, ?_,
        ⟨?_, ?_, ?_, ?_, ?_, ?_⟩, ?_, ?_, ?_⟩
      · simp [stepChoice, hadj, hadj.le, hvn, crem, ha.ne', cassert, hv0]
      · rw [abs_le]; omega
      · split <;> intro <;> omega
      · simp only; rw [r1]; split <;> omega
      · simp only; rw [r1, abs_le]; split <;> omega
      · simp only; rw [r1]; split <;> omega
      · simp only [flatDist, pdv]
        rw [g1, r1]
        split
        · rw [if_pos (by omega)]; ring
        · rw [if_pos (by omega)]; ring
      · intro; omega
      · intro; omega
      · intro; omega

end StepperPaths.IntegerCurve
