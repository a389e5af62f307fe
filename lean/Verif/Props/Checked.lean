import Verif.Proof.CheckedBounds
import Verif.Props.IntegerCurve

/-!
Property C87: the curves with `i64` arithmetic that panics on overflow.
-/

namespace StepperPaths.Props
open StepperPaths Spec IntegerCurve

/-- Limits for which the arithmetic of `shortest_curve_sequences` stays inside `i64`. -/
structure FitsI64 (l : PathLimits) : Prop where
  a_pos : 1 ≤ l.a
  a_max : l.a ≤ 2 ^ 15
  v_pos : 1 ≤ l.vmax
  v_max : l.vmax ≤ 2 ^ 27
  start : |l.v0| ≤ l.vmax
  stop : |l.vn| ≤ l.vmax
  dist : |l.ds| ≤ 2 ^ 40

theorem FitsI64.bounded {l : PathLimits} (h : FitsI64 l) : Checked.Bounded l :=
  ⟨h.a_pos, h.a_max, h.v_pos, h.v_max, h.start, h.stop, h.dist⟩

theorem FitsI64.inLimits {l : PathLimits} (h : FitsI64 l) : InLimits l.ds l.v0 l.vn l.a l.vmax :=
  ⟨h.a_pos, h.v_pos, h.v_max.trans (by norm_num), h.start, h.stop, h.dist.trans (by norm_num)⟩

theorem le_antisymm_opt {α : Type} {o p : Option α} (h : Checked.Le o p) (k : Checked.Le p o) : o = p := by
  cases hp : p with
  | some w => exact k w hp
  | none =>
    cases ho : o with
    | none => rfl
    | some w => rw [h w ho] at hp; simp at hp

/-! ### Whatever the arguments -/

/-- C87: a run without overflow returns the sequences of the unbounded arithmetic, for all arguments. -/
theorem C87_sequences_sound (ls : List PathLimits) (seqs : List (List AccSegment))
    (h : Checked.shortestCurveSequences ls = some seqs) : shortestCurveSequences ls = some seqs :=
  Checked.shortestCurveSequences_le ls seqs h

/-- C87: the same for a single curve, the admissible durations, and what is computed from a path. -/
theorem C87_sound (ds v0 vn a vmax : Int) (p : DistancePath) :
    (∀ q, Checked.shortestCurve ds v0 vn a vmax = some q → shortestCurve ds v0 vn a vmax = some q) ∧
    (∀ r, Checked.shortestCurveLength ds v0 vn a vmax = some r → shortestCurveLength ds v0 vn a vmax = some r) ∧
    (∀ s, Checked.accSeq p = some s → p.accSeq = some s) ∧
    (∀ d, Checked.distance p = some d → p.distance = some d) :=
  ⟨Checked.shortestCurve_le ds v0 vn a vmax, Checked.shortestCurveLength_le ds v0 vn a vmax, Checked.accSeq_le p,
    Checked.distance_le p⟩

/-- C87: so the sequences of a run without overflow have a common duration and each realises its limits. -/
theorem C87_synchronised (ls : List PathLimits) (hne : ls ≠ [])
    (hv : ∀ l ∈ ls, InLimits l.ds l.v0 l.vn l.a l.vmax) (seqs : List (List AccSegment))
    (h : Checked.shortestCurveSequences ls = some seqs) :
    ∃ T, 1 ≤ T ∧ List.Forall₂ (Realises T) ls seqs :=
  C16_synchronised ls hne hv seqs (C87_sequences_sound ls seqs h)

/-! ### Small arguments -/

/-- C87: for limits of this size no operation overflows. -/
theorem C87_no_overflow (ls : List PathLimits) (h : ∀ l ∈ ls, FitsI64 l) :
    Checked.shortestCurveSequences ls = shortestCurveSequences ls :=
  le_antisymm_opt (Checked.shortestCurveSequences_le ls)
    (Checked.shortestCurveSequences_ge (fun l hl => (h l hl).bounded))

/-- C87: nor does one in `shortest_curve_length`. -/
theorem C87_lengths (l : PathLimits) (h : FitsI64 l) :
    Checked.shortestCurveLength l.ds l.v0 l.vn l.a l.vmax = shortestCurveLength l.ds l.v0 l.vn l.a l.vmax :=
  le_antisymm_opt (Checked.shortestCurveLength_le _ _ _ _ _)
    (Checked.shortestCurveLength_ge h.bounded.small h.dist h.start h.stop h.v_max)

/-- C87: nor in `shortest_curve` when the curve is not longer than 2^18 ticks. -/
theorem C87_curve (l : PathLimits) (h : FitsI64 l) (p : DistancePath)
    (hp : shortestCurve l.ds l.v0 l.vn l.a l.vmax = some p) (hT : p.tTotal ≤ 2 ^ 18) :
    Checked.shortestCurve l.ds l.v0 l.vn l.a l.vmax = some p ∧ Checked.accSeq p = p.accSeq := by
  have hb := h.bounded
  obtain ⟨r, e, o, n, c⟩ := scl_spec hb.valid
  unfold shortestCurve at hp
  obtain ⟨r', hr, hp⟩ := Option.bind_eq_some_iff.1 hp
  obtain ⟨b, hbd, hp⟩ := Option.bind_eq_some_iff.1 hp
  rw [hr] at e
  obtain rfl := Option.some.inj e
  have hs := (c b.1).1 (Checked.bounds_contains n hbd)
  obtain ⟨h1, p', d, k, q1, q2, q3, q4, q5, -⟩ := accepted hb.valid hs.1 hs.2
  have hp' : adjustCurve b.1 l.ds l.v0 l.vn l.a = some p := hp
  rw [hp'] at q1
  obtain rfl := Option.some.inj q1
  refine ⟨?_, le_antisymm_opt (Checked.accSeq_le p) (Checked.accSeq_ge (by rw [q2, q3, q4]; exact hb.small))⟩
  unfold Checked.shortestCurve
  rw [C87_lengths l h, hr]
  refine Option.bind_eq_some_iff.2 ⟨_, rfl, Option.bind_eq_some_iff.2 ⟨b, hbd, ?_⟩⟩
  exact Checked.adjustCurve_ge hb.small h.dist (by omega) (by omega) (hs.1.hi hb.valid).1 _ hp'

theorem abs_le_fl {a : Int} (ha : 0 < a) (d : Int) : |d| ≤ a * (fl a d + 1) := by
  rw [mul_add, mul_one]
  rcases le_or_gt 0 d with h | h
  · rw [abs_of_nonneg h]
    exact (fl_bounds ha h).2.le
  · rw [abs_of_neg h]
    have := (fl_bounds_neg ha h).2
    omega

/-- The flat velocity of a path is not farther from its ends than they allow. -/
theorem geo_near {v0 vn a T vf adj : Int} (ha : 0 < a) (hT : T ≤ 2 ^ 18) (h : Geo v0 vn a T vf adj) :
    Checked.Near a v0 vn vf := by
  have up : ∀ {k : Int}, k ≤ 2 ^ 20 → a * k ≤ a * 2 ^ 20 := fun hk => mul_le_mul_of_nonneg_left hk ha.le
  have g : ∀ d, 0 ≤ fl a d := fl_nonneg ha
  rcases h with ⟨-, h⟩ | ⟨h0, h, -⟩ | ⟨h0, h, -⟩
  · have h1 := rt_nonneg ha (vf - v0)
    have h2 := rt_nonneg ha (vf - vn)
    exact ⟨((rt_le_iff (t := T) ha).1 (by omega)).trans (up (by omega)),
      ((rt_le_iff (t := T) ha).1 (by omega)).trans (up (by omega))⟩
  · unfold flatN at h
    have := g (vf - v0)
    have := g (vf - vn)
    exact ⟨(abs_le_fl ha _).trans (up (by omega)), (abs_le_fl ha _).trans (up (by omega))⟩
  · unfold flatN at h
    have := g (vf - 1 - v0)
    have := g (vf - 1 - vn)
    have k : ∀ w, 0 ≤ fl a (vf - 1 - w) → fl a (vf - 1 - w) ≤ T → |vf - w| ≤ a * 2 ^ 20 := by
      intro w w0 w1
      have h1 := abs_le_fl ha (vf - 1 - w)
      have h2 : a * (fl a (vf - 1 - w) + 1 + 1) ≤ a * 2 ^ 20 := up (by omega)
      rw [mul_add a (fl a (vf - 1 - w) + 1), mul_one] at h2
      rw [abs_le] at h1 ⊢
      constructor <;> omega
    exact ⟨k v0 (g _) (by omega), k vn (g _) (by omega)⟩

/-- C87: nor in the `distance` of such a curve. -/
theorem C87_distance (l : PathLimits) (h : FitsI64 l) (p : DistancePath)
    (hp : shortestCurve l.ds l.v0 l.vn l.a l.vmax = some p) (hT : p.tTotal ≤ 2 ^ 18) :
    Checked.distance p = p.distance := by
  have hb := h.bounded
  have ha : 0 < l.a := h.a_pos
  obtain ⟨T, e, -, s1, s2, -⟩ := shortest_T hb.valid
  obtain ⟨t1, p', d, k, q1, q2, q3, q4, q5, q6, q7, -⟩ := accepted hb.valid s1 s2
  obtain ⟨-, vf, adj, r1, r2, -⟩ := accepted_adjust hb.valid s1 s2
  rw [hp] at e
  rw [← e] at q1 r1
  cases q1
  cases r1
  replace hT : T ≤ 2 ^ 18 := hT
  have near := geo_near ha hT r2
  have hT' : |T| ≤ 2 ^ 18 := by rw [abs_of_nonneg (by omega)]; exact hT
  rw [q6]
  unfold DistancePath.distance at q6
  obtain ⟨s, hs, hd⟩ := Option.bind_eq_some_iff.1 q6
  have hd : s + 2 * adj = d := Option.some.inj hd
  have m1 := abs_le.1 (Checked.pathDistance_mag hb.small near hT' hs)
  have m2 := abs_le.1 q7
  have m3 := abs_le.1 h.dist
  unfold Checked.distance
  rw [show Checked.pathDistance l.v0 l.vn vf l.a T = some s from Checked.pathDistance_ge hb.small near hT' _ hs]
  show ((Checked.ck (2 * adj)).bind fun b => Checked.ck (s + b)) = some d
  rw [Checked.ck_eq (by rw [abs_lt]; constructor <;> omega), Option.bind_some,
    Checked.ck_eq (by rw [abs_lt]; constructor <;> omega), hd]

/-- C87: the sequences are returned for all limits of this size that some duration of at most 65535 ticks
allows. -/
theorem C87_returns (ls : List PathLimits) (hne : ls ≠ []) (hv : ∀ l ∈ ls, FitsI64 l ∧ l.a ≤ 32767)
    (T : Int) (hT : T ≤ 65535)
    (hc : ∀ l ∈ ls, ∃ r, Checked.shortestCurveLength l.ds l.v0 l.vn l.a l.vmax = some r ∧ Contains r.ranges T) :
    ∃ seqs T', Checked.shortestCurveSequences ls = some seqs ∧ 1 ≤ T' ∧ T' ≤ T ∧ List.Forall₂ (Realises T') ls seqs := by
  have hv' : ∀ l ∈ ls, InLimits l.ds l.v0 l.vn l.a l.vmax := fun l hl => (hv l hl).1.inLimits
  have hc' : ∀ l ∈ ls, ∃ r, shortestCurveLength l.ds l.v0 l.vn l.a l.vmax = some r ∧ Contains r.ranges T := by
    intro l hl
    obtain ⟨r, e, k⟩ := hc l hl
    exact ⟨r, by rw [← C87_lengths l (hv l hl).1]; exact e, k⟩
  obtain ⟨seqs, e⟩ := C16_returns ls hne (fun l hl => ⟨hv' l hl, (hv l hl).2⟩) T hT hc'
  obtain ⟨T', h1, f⟩ := C16_synchronised ls hne hv' seqs e
  obtain ⟨T2, k1, -, k3⟩ := C16_least_common_duration ls hne hv' seqs e
  refine ⟨seqs, T', by rw [C87_no_overflow ls (fun l hl => (hv l hl).1)]; exact e, h1, ?_, f⟩
  have : T' = T2 := by
    cases f with
    | nil => exact absurd rfl hne
    | cons hx _ => rw [← hx.ticks]; exact k1 _ (by simp)
  rw [this]
  exact k3 T hc'

/-- Two axes of a machine, about four seconds of motion. -/
def sampleAxes : List PathLimits := [⟨200000, 0, 300, 10, 500⟩, ⟨-30001, 5, -5, 7, 100⟩]

example : ∃ seqs T', Checked.shortestCurveSequences sampleAxes = some seqs ∧ 1 ≤ T' ∧ T' ≤ 400 ∧
    List.Forall₂ (Realises T') sampleAxes seqs := by
  have hf : ∀ l ∈ sampleAxes, FitsI64 l ∧ l.a ≤ 32767 := by
    intro l hl
    simp only [sampleAxes, List.mem_cons, List.not_mem_nil, or_false] at hl
    rcases hl with rfl | rfl <;>
      exact ⟨⟨by norm_num, by norm_num, by norm_num, by norm_num, by norm_num, by norm_num, by norm_num⟩, by norm_num⟩
  refine C87_returns sampleAxes (by simp [sampleAxes]) hf 400 (by norm_num) ?_
  intro l hl
  obtain ⟨r, e, -, -, c⟩ := scl_spec (hf l hl).1.inLimits.valid
  refine ⟨r, by rw [C87_lengths l (hf l hl).1]; exact e, (c 400).2 ?_⟩
  simp only [sampleAxes, List.mem_cons, List.not_mem_nil, or_false] at hl
  rcases hl with rfl | rfl <;>
    exact ⟨⟨by norm_num [i64Max], by decide⟩, ⟨by norm_num [i64Max], by decide⟩⟩

/-! ### Larger arguments -/

/-- C87: the full sizes for which the unbounded arithmetic is correct are too large for `i64`: reversing
from the largest `i32` speed overflows, although a curve exists. -/
theorem C87_overflow :
    InLimits (-2) 2147483647 (-2147483647) 1 2147483647 ∧
    (∃ p, shortestCurve (-2) 2147483647 (-2147483647) 1 2147483647 = some p) ∧
    Checked.shortestCurve (-2) 2147483647 (-2147483647) 1 2147483647 = none := by
  have h : InLimits (-2) 2147483647 (-2147483647) 1 2147483647 :=
    ⟨by norm_num, by norm_num, by norm_num, by norm_num, by norm_num, by norm_num⟩
  refine ⟨h, ?_, by decide⟩
  obtain ⟨p, d, e, -⟩ := C11_distance_reached _ _ _ _ _ h
  exact ⟨p, e⟩

end StepperPaths.Props
