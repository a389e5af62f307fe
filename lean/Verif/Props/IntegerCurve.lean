import Verif.Proof.IntegerCurve.Long
import Verif.Proof.IntegerCurve.Optimal

/-!
Properties C09-C19: integer acceleration curves.
-/

namespace StepperPaths.Props
open StepperPaths Spec IntegerCurve

/-- The documented limits of `shortest_curve`.  The sizes are bounded so that the
durations fit `i64`. -/
structure InLimits (ds v0 vn a vmax : Int) : Prop where
  a_pos : 1 ≤ a
  v_pos : 1 ≤ vmax
  v_big : vmax ≤ 2 ^ 59
  start : |v0| ≤ vmax
  stop : |vn| ≤ vmax
  dist : |ds| ≤ 2 ^ 62

theorem InLimits.valid {ds v0 vn a vmax : Int} (h : InLimits ds v0 vn a vmax) :
    Valid ds v0 vn a vmax :=
  ⟨h.a_pos, h.v_pos, h.v_big.trans (by norm_num), h.start, h.stop, h.dist.trans (by norm_num)⟩

/-! ### C09 -/

/-- C09: `split_acc` splits a velocity change into `t` full steps and a rest that is
not larger than a step, has the sign of the change and is only zero for no change. -/
theorem C09_split_acc (d m : Int) (hm : 0 < m) :
    ∃ t r, splitAcc d m = some (t, r) ∧ 0 ≤ t ∧ d = Int.sign d * t * m + r ∧ |r| ≤ m ∧
      (0 < d → 0 < r) ∧ (d < 0 → r < 0) ∧ (d = 0 → t = 0 ∧ r = 0) := by
  unfold splitAcc cdiv crem
  rcases lt_trichotomy d 0 with h | h | h
  · rw [if_neg (by omega), if_pos h, if_neg hm.ne', if_neg hm.ne']
    have e := Int.mul_tdiv_add_tmod (d + 1) m
    have n1 : Int.tdiv (d + 1) m ≤ 0 := by
      rw [show d + 1 = -(-(d + 1)) by ring, Int.neg_tdiv]
      have := Int.tdiv_nonneg (show 0 ≤ -(d + 1) by omega) hm.le
      omega
    have n2 : Int.tmod (d + 1) m ≤ 0 ∧ -m < Int.tmod (d + 1) m := by
      rw [show d + 1 = -(-(d + 1)) by ring, Int.neg_tmod]
      have := Int.tmod_nonneg m (show 0 ≤ -(d + 1) by omega)
      have := Int.tmod_lt_of_pos (-(d + 1)) hm
      omega
    refine ⟨_, _, rfl, abs_nonneg _, ?_, ?_, by omega, by omega, by omega⟩
    · rw [Int.sign_eq_neg_one_of_neg h, abs_of_nonpos n1]
      linarith
    · rw [abs_le]; omega
  · subst h
    exact ⟨0, 0, by simp, by simp, by simp, by simp; omega, by simp, by simp, by simp⟩
  · rw [if_pos h, if_neg hm.ne', if_neg hm.ne']
    have e := Int.mul_tdiv_add_tmod (d - 1) m
    have n1 := Int.tdiv_nonneg (show 0 ≤ d - 1 by omega) hm.le
    have n2 := Int.tmod_nonneg m (show 0 ≤ d - 1 by omega)
    have n3 := Int.tmod_lt_of_pos (d - 1) hm
    refine ⟨_, _, rfl, abs_nonneg _, ?_, ?_, by omega, by omega, by omega⟩
    · rw [Int.sign_eq_one_of_pos h, abs_of_nonneg n1]
      linarith
    · rw [abs_le]; omega

example : splitAcc 17 5 = some (3, 2) ∧ splitAcc (-15) 5 = some (2, -5) := by decide

/-! ### C10 -/

/-- C10: `distance()` of a path without time adjustment is the distance of the
trapezoid through `vflat`, provided the two ramps fit into the duration. -/
theorem C10_distance_is_trapezoid (p : DistancePath) (ha : 0 < p.amax) (hadj : p.tAdjust = 0)
    (t1 t4 : Nat) (h1 : |p.vflat - p.v0| ≤ p.amax * t1) (h4 : |p.vflat - p.vn| ≤ p.amax * t4)
    (hT : (t1 : Int) + t4 ≤ p.tTotal) :
    p.distance = some (profileDist (trapezoid p.v0 p.vn p.amax p.vflat p.tTotal)
      p.tTotal.toNat) := by
  have r1 := (rt_le_iff ha).2 h1
  have r4 := (rt_le_iff ha).2 h4
  rw [trapezoid_dist ha (by omega)]
  unfold DistancePath.distance
  rw [pathDistance_eq ha, hadj]
  simp

example : DistancePath.distance ⟨3, -2, 5, 17, 10, 0⟩ = some 227 ∧
    profileDist (trapezoid 3 (-2) 5 17 10) 10 = 227 := by decide

/-! ### C11 -/

/-- C11: `shortest_curve` returns a path with the requested end velocities whose
distance is the requested one, up to one step when the parity does not allow it. -/
theorem C11_distance_reached (ds v0 vn a vmax : Int) (h : InLimits ds v0 vn a vmax) :
    ∃ p d, shortestCurve ds v0 vn a vmax = some p ∧ p.v0 = v0 ∧ p.vn = vn ∧ p.amax = a ∧
      1 ≤ p.tTotal ∧ p.distance = some d ∧ |d - ds| ≤ 1 ∧ (d = ds ↔ (ds - (v0 + vn)) % 2 = 0) := by
  obtain ⟨T, e, hT, s1, s2, _⟩ := shortest_T h.valid
  obtain ⟨t1, p, d, l, q1, q2, q3, q4, q5, q6, q7, q8, q9, q10, _⟩ := accepted h.valid s1 s2
  refine ⟨p, d, by rw [e, q1], q2, q3, q4, by omega, q6, q7, ?_⟩
  have := dist_parity v0 l
  rw [q9, q10.endv] at this
  rw [abs_le] at q7
  omega

/-! ### C12-C15 -/

/-- C12: `acc_seq` of the returned path, played from `v0`, lasts `t_total` ticks, ends
with velocity `vn` and moves `distance()`; intervals are positive `u16` values. -/
theorem C12_sequence_realises_path (ds v0 vn a vmax : Int) (h : InLimits ds v0 vn a vmax)
    (p : DistancePath) (segs : List AccSegment) (hp : shortestCurve ds v0 vn a vmax = some p)
    (hs : p.accSeq = some segs) :
    ((expand segs).length : Int) = p.tTotal ∧ endVel v0 (expand segs) = vn ∧
      p.distance = some (dist v0 (expand segs)) ∧
      (∀ s ∈ segs, 0 < s.interval ∧ s.interval ≤ 65535) := by
  obtain ⟨T, e, hT, s1, s2, _⟩ := shortest_T h.valid
  obtain ⟨t1, p', d, l, q1, q2, q3, q4, q5, q6, q7, q8, q9, q10, q11, _⟩ := accepted h.valid s1 s2
  rw [hp, q1] at e
  cases e
  obtain ⟨e1, c1⟩ := q11 segs hs
  subst e1
  refine ⟨by omega, q10.endv, by rw [q9]; exact q6, fun s hs => ?_⟩
  have := c1.1 s hs
  omega

/-- C13: no acceleration of the sequence exceeds `a`. -/
theorem C13_acceleration_limited (ds v0 vn a vmax : Int) (h : InLimits ds v0 vn a vmax)
    (p : DistancePath) (segs : List AccSegment) (hp : shortestCurve ds v0 vn a vmax = some p)
    (hs : p.accSeq = some segs) : ∀ s ∈ segs, |s.acc| ≤ a := by
  obtain ⟨T, e, hT, s1, s2, _⟩ := shortest_T h.valid
  obtain ⟨t1, p', d, l, q1, q2, q3, q4, q5, q6, q7, q8, q9, q10, q11, _⟩ := accepted h.valid s1 s2
  rw [hp, q1] at e
  cases e
  obtain ⟨e1, c1⟩ := q11 segs hs
  subst e1
  intro s hs
  apply q10.acc
  have := c1.1 s hs
  simp only [expand, List.mem_flatMap]
  exact ⟨s, hs, List.mem_replicate.2 ⟨by omega, rfl⟩⟩

/-- C14: the velocity stays within `[-vmax, vmax]` at every tick. -/
theorem C14_speed_limited (ds v0 vn a vmax : Int) (h : InLimits ds v0 vn a vmax)
    (p : DistancePath) (segs : List AccSegment) (hp : shortestCurve ds v0 vn a vmax = some p)
    (hs : p.accSeq = some segs) : ∀ v ∈ vels v0 (expand segs), |v| ≤ vmax := by
  obtain ⟨T, e, hT, s1, s2, _⟩ := shortest_T h.valid
  obtain ⟨t1, p', d, l, q1, q2, q3, q4, q5, q6, q7, q8, q9, q10, q11, _⟩ := accepted h.valid s1 s2
  rw [hp, q1] at e
  cases e
  obtain ⟨e1, c1⟩ := q11 segs hs
  subst e1
  exact q10.vel

/-- C15: inside the limits `shortest_curve` returns, and so does `acc_seq` when the
duration fits `u16` and the acceleration `i16`. -/
theorem C15_no_panic (ds v0 vn a vmax : Int) (h : InLimits ds v0 vn a vmax) :
    ∃ p, shortestCurve ds v0 vn a vmax = some p ∧ p.tTotal ≤ 2 ^ 62 ∧
      (p.tTotal ≤ 65535 → a ≤ 32767 → ∃ segs, p.accSeq = some segs) := by
  obtain ⟨T, e, hT, s1, s2, _⟩ := shortest_T h.valid
  obtain ⟨t1, p, d, l, q1, q2, q3, q4, q5, q6, q7, q8, q9, q10, q11, q12⟩ := accepted h.valid s1 s2
  refine ⟨p, by rw [e, q1], by rw [q5]; exact hT.trans (by norm_num), ?_⟩
  rw [q5]
  exact q12

/-- An instance: 1000 half steps with different velocities at the ends. -/
example : ∃ p d, shortestCurve 1001 (-7) 12 3 40 = some p ∧ p.v0 = -7 ∧ p.vn = 12 ∧ p.amax = 3 ∧
    1 ≤ p.tTotal ∧ p.distance = some d ∧ |d - 1001| ≤ 1 ∧ (d = 1001 ↔ (1001 - (-7 + 12)) % 2 = 0) :=
  C11_distance_reached 1001 (-7) 12 3 40
    ⟨by norm_num, by norm_num, by norm_num, by norm_num, by norm_num, by norm_num⟩

/-! ### C16 -/

/-- What C16 asks of one sequence of common duration `T`. -/
structure Realises (T : Int) (l : PathLimits) (segs : List AccSegment) : Prop where
  ticks : ((expand segs).length : Int) = T
  motion : Motion l.a l.vmax l.v0 l.vn (expand segs)
  near : |dist l.v0 (expand segs) - l.ds| ≤ 1
  exact : (l.ds - (l.v0 + l.vn)) % 2 = 0 → dist l.v0 (expand segs) = l.ds
  intervals : ∀ s ∈ segs, 0 < s.interval ∧ s.interval ≤ 65535

/-- C16: when `shortest_curve_sequences` returns, it returns one sequence for each
limit, in order, all of the same duration and each realising its limits. -/
theorem C16_synchronised (ls : List PathLimits) (hne : ls ≠ [])
    (hv : ∀ l ∈ ls, InLimits l.ds l.v0 l.vn l.a l.vmax) (seqs : List (List AccSegment))
    (h : shortestCurveSequences ls = some seqs) :
    ∃ T, 1 ≤ T ∧ List.Forall₂ (Realises T) ls seqs := by
  obtain ⟨T, e, h1, -, hc, -⟩ := sequences_T hne (fun l hl => (hv l hl).valid)
  refine ⟨T, h1, ?_⟩
  rw [h] at e
  have f := mapM_some_forall₂ e.symm
  have key : ∀ l ∈ ls, ∀ segs, (do
      let path ← adjustCurve T l.ds l.v0 l.vn l.a
      path.accSeq) = some segs → Realises T l segs := by
    intro l hl segs hs
    obtain ⟨s1, s2⟩ := hc l hl
    obtain ⟨t1, p, d, k, q1, q2, q3, q4, q5, q6, q7, q8, q9, q10, q11, _⟩ :=
      accepted (hv l hl).valid s1 s2
    rw [q1] at hs
    obtain ⟨e1, c1⟩ := q11 segs hs
    subst e1
    refine ⟨q8, q10, by rw [q9]; exact q7, ?_, fun s hs => ?_⟩
    · intro hpar
      have := dist_parity l.v0 (expand segs)
      rw [q10.endv] at this
      rw [abs_le] at q7
      omega
    · have := c1.1 s hs
      omega
  clear e h hne hc hv
  induction f with
  | nil => exact .nil
  | cons hx _ ih =>
    exact .cons (key _ (by simp) _ hx) (ih (fun l hl => key l (by simp [hl])))

/-- C16: it does return when the limits fit `i16` and some duration of at most 65535
ticks is possible for all limits. -/
theorem C16_returns (ls : List PathLimits) (hne : ls ≠ [])
    (hv : ∀ l ∈ ls, InLimits l.ds l.v0 l.vn l.a l.vmax ∧ l.a ≤ 32767)
    (T : Int) (hT : T ≤ 65535)
    (hc : ∀ l ∈ ls, ∃ r, shortestCurveLength l.ds l.v0 l.vn l.a l.vmax = some r ∧
      Contains r.ranges T) :
    ∃ seqs, shortestCurveSequences ls = some seqs := by
  obtain ⟨t, e, h1, _, hct, hmin⟩ := sequences_T hne (fun l hl => (hv l hl).1.valid)
  have ht : t ≤ T := by
    apply hmin
    intro l hl
    obtain ⟨r, e1, c1⟩ := hc l hl
    obtain ⟨r', e2, _, _, c2⟩ := scl_spec (hv l hl).1.valid
    rw [e1] at e2
    cases e2
    exact (c2 T).1 c1
  rw [e]
  apply mapM_isSome
  intro l hl
  obtain ⟨s1, s2⟩ := hct l hl
  obtain ⟨t1, p, d, k, q1, q2, q3, q4, q5, q6, q7, q8, q9, q10, q11, q12⟩ :=
    accepted (hv l hl).1.valid s1 s2
  obtain ⟨segs, hs⟩ := q12 (by omega) (hv l hl).2
  exact ⟨segs, by rw [q1]; exact hs⟩

/-- C16: the common duration is the least one possible for all limits. -/
theorem C16_least_common_duration (ls : List PathLimits) (hne : ls ≠ [])
    (hv : ∀ l ∈ ls, InLimits l.ds l.v0 l.vn l.a l.vmax) (seqs : List (List AccSegment))
    (h : shortestCurveSequences ls = some seqs) :
    ∃ T, (∀ s ∈ seqs, ((expand s).length : Int) = T) ∧
      (∀ l ∈ ls, ∃ r, shortestCurveLength l.ds l.v0 l.vn l.a l.vmax = some r ∧
        Contains r.ranges T) ∧
      ∀ x, (∀ l ∈ ls, ∃ r, shortestCurveLength l.ds l.v0 l.vn l.a l.vmax = some r ∧
        Contains r.ranges x) → T ≤ x := by
  obtain ⟨T, e, h1, _, hc, hmin⟩ := sequences_T hne (fun l hl => (hv l hl).valid)
  refine ⟨T, ?_, ?_, ?_⟩
  · rw [h] at e
    have f := mapM_some_forall₂ e.symm
    intro s hs
    have : ∃ l ∈ ls, (do
      let path ← adjustCurve T l.ds l.v0 l.vn l.a
      path.accSeq) = some s := by
      clear e h hne hc hv hmin
      induction f with
      | nil => simp at hs
      | cons hx _ ih =>
        rcases List.mem_cons.1 hs with rfl | hs
        · exact ⟨_, by simp, hx⟩
        · obtain ⟨l, hl, hl2⟩ := ih hs
          exact ⟨l, by simp [hl], hl2⟩
    obtain ⟨l, hl, hl2⟩ := this
    obtain ⟨s1, s2⟩ := hc l hl
    obtain ⟨t1, p, d, k, q1, q2, q3, q4, q5, q6, q7, q8, q9, q10, q11, _⟩ :=
      accepted (hv l hl).valid s1 s2
    rw [q1] at hl2
    rw [(q11 s hl2).1, q8]
  · intro l hl
    obtain ⟨r, e2, _, _, c2⟩ := scl_spec (hv l hl).valid
    exact ⟨r, e2, (c2 T).2 (hc l hl)⟩
  · intro x hx
    apply hmin
    intro l hl
    obtain ⟨r, e1, c1⟩ := hx l hl
    obtain ⟨r', e2, _, _, c2⟩ := scl_spec (hv l hl).valid
    rw [e1] at e2
    cases e2
    exact (c2 x).1 c1

/-! ### C17 -/

/-- C17: every duration in the result of `shortest_curve_length` is possible, and
all large durations are in it. -/
theorem C17_lengths_possible (ds v0 vn a vmax : Int) (h : InLimits ds v0 vn a vmax) :
    ∃ r, shortestCurveLength ds v0 vn a vmax = some r ∧
      (∀ T, Contains r.ranges T → ∃ l : List Int, (l.length : Int) = T ∧
        Motion a vmax v0 vn l ∧ |dist v0 l - ds| ≤ 1 ∧
        ((ds - (v0 + vn)) % 2 = 0 → dist v0 l = ds)) ∧
      (∀ T, 2 ^ 62 ≤ T → T < i64Max → Contains r.ranges T) := by
  obtain ⟨r, e, _, _, c⟩ := scl_spec h.valid
  refine ⟨r, e, ?_, ?_⟩
  · intro T hT
    obtain ⟨s1, s2⟩ := (c T).1 hT
    obtain ⟨t1, p, d, l, q1, q2, q3, q4, q5, q6, q7, q8, q9, q10, _⟩ := accepted h.valid s1 s2
    refine ⟨l, q8, q10, by rw [q9]; exact q7, fun hp => ?_⟩
    have := dist_parity v0 l
    rw [q10.endv] at this
    rw [abs_le] at q7
    omega
  · intro T h1 h2
    have hb : bigT ≤ T := le_trans (by norm_num) h1
    exact (c T).2 ⟨SideOK.far h.valid hb h2, SideOK.far h.valid.neg hb h2⟩

/-- C17: `shortest_curve` uses the least duration in `shortest_curve_length`. -/
theorem C17_least_length_used (ds v0 vn a vmax : Int) (h : InLimits ds v0 vn a vmax) :
    ∃ r p, shortestCurveLength ds v0 vn a vmax = some r ∧
      shortestCurve ds v0 vn a vmax = some p ∧ Contains r.ranges p.tTotal ∧
      ∀ T, Contains r.ranges T → p.tTotal ≤ T := by
  obtain ⟨r, e, _, _, c⟩ := scl_spec h.valid
  obtain ⟨T, e', hT, s1, s2, hmin⟩ := shortest_T h.valid
  obtain ⟨t1, p, d, l, q1, q2, q3, q4, q5, _⟩ := accepted h.valid s1 s2
  refine ⟨r, p, e, by rw [e', q1], ?_, ?_⟩
  · rw [q5, c]; exact ⟨s1, s2⟩
  · intro x hx
    rw [q5]
    exact hmin x ((c x).1 hx).1 ((c x).1 hx).2

/-- A motion in the sense of the specification. -/
example : ∃ l : List Int, l.length = 3 ∧ Motion 2 4 1 (-1) l ∧ dist 1 l = 8 :=
  ⟨[2, -2, -2], rfl, ⟨by decide, by decide, by decide⟩, by decide⟩

/-! ### C18 -/

/-- C18: if any motion within the limits covers the distance in `n` ticks and
`|v0 + vn| ≤ a n` (in particular for every motion that stops once, or that starts and
ends at rest), then `shortest_curve` takes at most one tick more. -/
theorem C18_within_one_tick (ds v0 vn a vmax : Int) (h : InLimits ds v0 vn a vmax)
    (l : List Int) (hm : Motion a vmax v0 vn l) (hd : dist v0 l = ds)
    (hg : |v0 + vn| ≤ a * l.length) :
    ∃ p, shortestCurve ds v0 vn a vmax = some p ∧ p.tTotal ≤ l.length + 1 := by
  obtain ⟨T, e, hT, s1, s2, hmin⟩ := shortest_T h.valid
  obtain ⟨t1, p, d, k, q1, q2, q3, q4, q5, _⟩ := accepted h.valid s1 s2
  refine ⟨p, by rw [e, q1], ?_⟩
  rw [q5]
  by_cases hl : (l.length : Int) + 1 < i64Max
  · have hne : l ≠ [] ∨ v0 = 0 := by
      by_cases h0 : l = []
      · right
        subst h0
        have := hm.endv
        simp only [endVel] at this
        simp at hg
        omega
      · left; exact h0
    rw [abs_le] at hg
    apply hmin
    · exact side_next h.valid hm hd (by omega) hne hl
    · have := side_next h.valid.neg hm.neg (by rw [dist_neg, hd]) (by
        rw [List.length_map]; omega) (by
        rcases hne with h | h
        · left; simpa using h
        · right; omega) (by rw [List.length_map]; exact hl)
      rwa [List.length_map] at this
  · have := bigT_lt
    omega

/-- C18: the extra tick is real.  From rest to rest over `2a` half steps two ticks
suffice, but the result has at least three. -/
theorem C18_one_tick_late (a vmax : Int) (ha : 1 ≤ a) (hv : a < vmax) (hb : vmax ≤ 2 ^ 59) :
    (Motion a vmax 0 0 [a, -a] ∧ dist 0 [a, -a] = 2 * a) ∧
    ∃ p, shortestCurve (2 * a) 0 0 a vmax = some p ∧ 3 ≤ p.tTotal := by
  constructor
  · refine ⟨⟨by simp [endVel], ?_, ?_⟩, by simp [dist]; ring⟩
    · intro x hx
      simp at hx
      rw [abs_le]; omega
    · intro x hx
      simp [vels] at hx
      rw [abs_le]; omega
  · have hb' : (2 : Int) ^ 59 = 576460752303423488 := by norm_num
    have h : InLimits (2 * a) 0 0 a vmax := ⟨ha, by omega, hb, by simp; omega, by simp; omega,
      by rw [abs_of_pos (by omega)]; norm_num; omega⟩
    obtain ⟨T, e, hT, s1, s2, hmin⟩ := shortest_T h.valid
    obtain ⟨t1, p, d, k, q1, q2, q3, q4, q5, _⟩ := accepted h.valid s1 s2
    refine ⟨p, by rw [e, q1], ?_⟩
    rw [q5]
    by_contra hc
    have rtv : 2 ≤ rt a (vmax - 0) := by
      by_contra hr
      have := (rt_le_iff (show 0 < a by omega) (d := vmax - 0) (t := 1)).1 (by omega)
      rw [abs_of_pos (by omega)] at this
      omega
    obtain ⟨-, ⟨_, p2, _⟩ | ⟨_, _, p3, p4⟩⟩ := s1
    · omega
    · unfold accPoly at p3
      have : a * a * T * T ≤ a * a * 4 := by
        have : T * T ≤ 4 := by nlinarith
        have := mul_le_mul_of_nonneg_left this (show 0 ≤ a * a by positivity)
        nlinarith
      nlinarith

/-- C18: without the condition the excess is unbounded.  Keeping the velocity `v` for
one tick is possible, but when `3a < 4v` the result takes about `4v/a` ticks. -/
theorem C18_excess_unbounded (a v : Int) (ha : 1 ≤ a) (hv : 3 * a < 4 * v) (hb : v ≤ 2 ^ 59) :
    (Motion a v v v [0] ∧ dist v [0] = 2 * v) ∧
    ∃ p, shortestCurve (2 * v) v v a v = some p ∧ 4 * v ≤ a * (p.tTotal + 1) := by
  constructor
  · refine ⟨⟨by simp [endVel], ?_, ?_⟩, by simp [dist]; ring⟩
    · intro x hx
      simp at hx
      rw [abs_le]; omega
    · intro x hx
      simp [vels] at hx
      rw [abs_le]; omega
  · have hb' : (2 : Int) ^ 59 = 576460752303423488 := by norm_num
    have h : InLimits (2 * v) v v a v := ⟨ha, by omega, hb, by rw [abs_of_pos (by omega)],
      by rw [abs_of_pos (by omega)], by rw [abs_of_pos (by omega)]; norm_num; omega⟩
    obtain ⟨T, e, hT, s1, s2, hmin⟩ := shortest_T h.valid
    obtain ⟨t1, p, d, k, q1, q2, q3, q4, q5, _⟩ := accepted h.valid s1 s2
    refine ⟨p, by rw [e, q1], ?_⟩
    rw [q5]
    have hp := peakDist_nonneg (v0 := -v) (vn := -v) (a := a) (vmax := v) (by omega)
      (by rw [abs_neg, abs_of_pos (by omega)]) (by rw [abs_neg, abs_of_pos (by omega)])
    obtain ⟨-, ⟨p1, _, _⟩ | ⟨_, _, p3, p4⟩⟩ := s2
    · omega
    · unfold accPoly at p3 p4
      have e3 : 0 ≤ a * ((T - 1) * (a * (T + 1) - 4 * v)) := by nlinarith
      have e4 : 0 ≤ a * (T * (a * (T + 2) - 4 * v)) := by nlinarith
      have e4' : 0 ≤ T * (a * (T + 2) - 4 * v) := nonneg_of_mul_nonneg_right e4 (by omega)
      have e4'' : 0 ≤ a * (T + 2) - 4 * v := nonneg_of_mul_nonneg_right e4' (by omega)
      have hT2 : 2 ≤ T := by
        by_contra hc
        have : T = 1 := by omega
        subst this
        omega
      have e3' : 0 ≤ (T - 1) * (a * (T + 1) - 4 * v) := nonneg_of_mul_nonneg_right e3 (by omega)
      have e3'' : 0 ≤ a * (T + 1) - 4 * v := nonneg_of_mul_nonneg_right e3' (by omega)
      omega

/-! ### C19 -/

/-- C19: `max_acceleration_curve` contains exactly the durations that allow the change of
velocity and for which the quadratic inequality holds both at `T` and at `T + 1`. -/
theorem C19_max_acceleration_curve (ds v0 vn a : Int) (ha : 1 ≤ a) (h0 : |v0| ≤ 2 ^ 59)
    (hn : |vn| ≤ 2 ^ 59) (hd : |ds| ≤ 2 ^ 62) :
    ∃ r, maxAccelerationCurve ds v0 vn a = some r ∧ Ordered r.ranges ∧ AllNonempty r.ranges ∧
      ∀ T, Contains r.ranges T ↔ 1 ≤ T ∧ T < i64Max ∧ |v0 - vn| ≤ a * T ∧
        (v0 - vn) ^ 2 + a ^ 2 + 2 * a * ds ≤ a ^ 2 * T ^ 2 + 2 * a * (v0 + vn) * T ∧
        (v0 - vn) ^ 2 + a ^ 2 + 2 * a * ds
          ≤ a ^ 2 * (T + 1) ^ 2 + 2 * a * (v0 + vn) * (T + 1) := by
  obtain ⟨r, e, o, n, c⟩ := mac_spec (ds := ds) (v0 := v0) (vn := vn) (a := a) ha
    (h0.trans (by norm_num)) (hn.trans (by norm_num)) (hd.trans (by norm_num))
  refine ⟨r, e, o, n, fun T => ?_⟩
  rw [c, tMin_spec (by omega)]
  have e1 : ∀ T, 0 ≤ accPoly ds v0 vn a T ↔
      (v0 - vn) ^ 2 + a ^ 2 + 2 * a * ds ≤ a ^ 2 * T ^ 2 + 2 * a * (v0 + vn) * T := by
    intro T
    unfold accPoly
    constructor <;> intro h <;> nlinarith
  rw [e1, e1]
  tauto

/-- An instance where the gap exists: passing the target and coming back. -/
example : ∃ r, maxAccelerationCurve (-200) (-30) (-30) 3 = some r ∧
    Contains r.ranges 2 ∧ ¬ Contains r.ranges 3 ∧ Contains r.ranges 40 := by
  obtain ⟨r, e, _, _, c⟩ := C19_max_acceleration_curve (-200) (-30) (-30) 3 (by norm_num)
    (by norm_num) (by norm_num) (by norm_num)
  refine ⟨r, e, ?_, ?_, ?_⟩ <;> rw [c] <;> norm_num [i64Max]

end StepperPaths.Props
