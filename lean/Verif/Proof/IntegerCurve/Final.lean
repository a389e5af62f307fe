import Verif.Proof.IntegerCurve.Ranges

/-! What `shortest_curve` and `shortest_curve_sequences` return. -/

namespace StepperPaths.IntegerCurve

open Solve Spec MultiRange

theorem toU16_bounds {x : Int} {n : Nat} (h : toU16 x = some n) : (n : Int) = x ∧ n < 65536 := by
  unfold toU16 at h
  split at h
  · cases h; omega
  · cases h

theorem toI16_eq {x y : Int} (h : toI16 x = some y) : y = x := by
  unfold toI16 at h
  split at h
  · cases h; rfl
  · cases h

theorem pushI_some {s s' : List AccSegment} {t a : Int} (hc : Canonical s)
    (h : pushI s t a = some s') :
    expand s' = expand s ++ List.replicate t.toNat a ∧ Canonical s' := by
  unfold pushI at h
  cases ht : toU16 t with
  | none => rw [ht] at h; cases h
  | some n =>
    cases ha : toI16 a with
    | none => rw [ht, ha] at h; cases h
    | some b =>
      rw [ht, ha] at h
      simp only [Option.bind_eq_bind, Option.bind_some] at h
      obtain ⟨h1, h2⟩ := toU16_bounds ht
      have h3 := toI16_eq ha
      subst h3
      refine ⟨?_, accPush_canonical h2 hc h⟩
      rw [accPush_expand h]
      congr 2
      omega

theorem pushAll_some {s s' : List AccSegment} {xs : List (Int × Int)} (hc : Canonical s)
    (h : pushAll s xs = some s') : expand s' = expand s ++ pushTicks xs ∧ Canonical s' := by
  induction xs generalizing s with
  | nil => cases h; simp [pushTicks, hc]
  | cons x xs ih =>
    simp only [pushAll] at h
    cases h1 : pushI s x.1 x.2 with
    | none => rw [h1] at h; cases h
    | some s1 =>
      rw [h1] at h
      obtain ⟨e1, c1⟩ := pushI_some hc h1
      obtain ⟨e2, c2⟩ := ih c1 h
      refine ⟨?_, c2⟩
      rw [e2, e1]; simp [pushTicks]

theorem accSeq_some {p : DistancePath} {vs ve ts : Int} {segs : List AccSegment}
    (ha : 0 < p.amax) (hT : 2 ≤ p.tTotal)
    (hs : stepChoice p = some (vs, ve, ts)) (hf : Fits p vs ve ts) (h : p.accSeq = some segs) :
    expand segs = pathTicks p vs ve ts ∧ Canonical segs := by
  rw [accSeq_eq ha hT hs hf] at h
  obtain ⟨h1, h2⟩ := pushAll_some canonical_nil h
  exact ⟨by rw [h1, pathTicks_push]; simp [expand], h2⟩

theorem dist_parity (v : Int) (l : List Int) : (dist v l - (v + endVel v l)) % 2 = 0 := by
  induction l generalizing v with
  | nil => simp only [dist, endVel]; omega
  | cons x l ih =>
    have := ih (v + x)
    simp only [dist, endVel]
    omega

/-- Everything about a path of an accepted duration. -/
theorem accepted {ds v0 vn a vmax T : Int} (h : Valid ds v0 vn a vmax)
    (hs : SideOK ds v0 vn a vmax T) (hs' : SideOK (-ds) (-v0) (-vn) a vmax T) :
    1 ≤ T ∧ ∃ p d l, adjustCurve T ds v0 vn a = some p ∧
      p.v0 = v0 ∧ p.vn = vn ∧ p.amax = a ∧ p.tTotal = T ∧ p.distance = some d ∧ |d - ds| ≤ 1 ∧
      (l.length : Int) = T ∧ dist v0 l = d ∧ Motion a vmax v0 vn l ∧
      (∀ segs, p.accSeq = some segs → expand segs = l ∧ Canonical segs) ∧
      (T ≤ 65535 → a ≤ 32767 → ∃ segs, p.accSeq = some segs) := by
  have ha : 0 < a := h.a_pos
  obtain ⟨hT, vf, adj, e, hg, hd⟩ := accepted_adjust h hs hs'
  obtain ⟨d1, d2, d3⟩ := hs.hi h
  obtain ⟨g1, g2, g3⟩ := hs'.hi h.neg
  have h0 := abs_le.1 h.h0
  have hn := abs_le.1 h.hn
  have u1 := speed_hi ha h0.2 hn.2 hg hd d3
  have u2 := speed_lo (V := -vmax) ha h0.1 hn.1 hg hd (by
    intro hr
    have := g3 (by
      rw [show vmax - -v0 = -(-vmax - v0) by ring, show vmax - -vn = -(-vmax - vn) by ring,
        rt_neg, rt_neg]
      exact hr)
    have e := pdv_neg (v0 := v0) (vn := vn) (T := T) ha (-vmax)
    rw [neg_neg] at e
    omega)
  refine ⟨hT, ⟨v0, vn, a, vf, T, adj⟩, pdv v0 vn a T vf + 2 * adj, ?_⟩
  obtain ⟨vs, ve, ts, s1, s2, s3, s4, s5⟩ := geo_step (p := ⟨v0, vn, a, vf, T, adj⟩) ha hg
  simp only at s3 s4 s5
  have b : -vmax ≤ vs ∧ vs ≤ vmax ∧ -vmax ≤ ve ∧ ve ≤ vmax := by
    rcases lt_trichotomy adj 0 with h | h | h
    · have := s5 h; have := u1.1 h.le; have := u2.2 h; omega
    · have := s3 h; have := u1.1 h.le; have := u2.1 h.ge; omega
    · have := s4 h; have := u1.2 h; have := u2.1 h.le; omega
  have run := pathTicks_run (p := ⟨v0, vn, a, vf, T, adj⟩) (lo := -vmax) (hi := vmax) ha s2
    b.1 b.2.1 b.2.2.1 b.2.2.2 h0.1 h0.2 hn.1 hn.2
  refine ⟨pathTicks ⟨v0, vn, a, vf, T, adj⟩ vs ve ts, e, rfl, rfl, rfl, rfl, ?_, hd,
    run.len, run.dst, ⟨run.endv, run.acc, fun x hx => abs_le.2 (run.vel x hx)⟩, ?_⟩
  · unfold DistancePath.distance
    rw [pathDistance_eq ha]
    rfl
  · by_cases h1 : T = 1
    · subst h1
      have hl : pathTicks ⟨v0, vn, a, vf, 1, adj⟩ vs ve ts = [vn - v0] := by
        have hlen := run.len
        have hend := run.endv
        match hl : pathTicks ⟨v0, vn, a, vf, 1, adj⟩ vs ve ts, hlen with
        | [x], _ =>
          rw [hl] at hend
          simp only [endVel] at hend
          congr 1; omega
      rw [hl]
      have ea : DistancePath.accSeq ⟨v0, vn, a, vf, 1, adj⟩ = pushI [] 1 (vn - v0) := by
        unfold DistancePath.accSeq cassert
        have : v0 - vn ≤ a := by rw [abs_le] at d1; omega
        simp [this]
      rw [ea]
      constructor
      · intro segs hsegs
        have := pushI_some canonical_nil hsegs
        simpa [expand] using this
      · intro _ ha'
        obtain ⟨s', e1, _⟩ := pushI_ok (s := []) (t := 1) (a := vn - v0) canonical_nil (by omega)
          (by simp [expand]) (by rw [abs_le] at *; omega)
        exact ⟨s', e1⟩
    · constructor
      · intro segs hsegs
        exact accSeq_some ha (by simp only; omega) s1 s2 hsegs
      · intro hT' ha'
        obtain ⟨segs, e1, _⟩ := accSeq_ok (p := ⟨v0, vn, a, vf, T, adj⟩) ha ha' (by simp only; omega)
          hT' s1 s2
        exact ⟨segs, e1⟩

/-! ### The least duration -/

theorem bounds_spec (m : MultiRange Int) (ho : Ordered m.ranges) (hn : AllNonempty m.ranges)
    (T : Int) (hT : Contains m.ranges T) :
    ∃ t u, m.bounds = some (t, u) ∧ Contains m.ranges t ∧ ∀ x, Contains m.ranges x → t ≤ x := by
  obtain ⟨rs⟩ := m
  cases rs with
  | nil => simp [Contains] at hT
  | cons f rs =>
    obtain ⟨l, hl⟩ : ∃ l, (f :: rs).getLast? = some l := by
      cases h : (f :: rs).getLast? with
      | none => simp at h
      | some l => exact ⟨l, rfl⟩
    refine ⟨f.1, l.2, by simp [MultiRange.bounds, hl], ⟨f, by simp, le_rfl, hn f (by simp)⟩, ?_⟩
    rintro x ⟨r, hr, h1, h2⟩
    rcases List.mem_cons.1 hr with rfl | hr
    · exact h1
    · have := (List.pairwise_cons.1 ho.1).1 r hr
      have := hn f (by simp)
      simp only at *
      omega

/-- A duration accepted for all limits of a list. -/
def Common (ls : List PathLimits) (T : Int) : Prop :=
  ∀ l ∈ ls, SideOK l.ds l.v0 l.vn l.a l.vmax T ∧ SideOK (-l.ds) (-l.v0) (-l.vn) l.a l.vmax T

theorem commonLengths_spec (r : MultiRange Int) (ls : List PathLimits)
    (ho : Ordered r.ranges) (hn : AllNonempty r.ranges)
    (hv : ∀ l ∈ ls, Valid l.ds l.v0 l.vn l.a l.vmax) :
    ∃ m, commonLengths r ls = some m ∧ Ordered m.ranges ∧ AllNonempty m.ranges ∧
      ∀ T, Contains m.ranges T ↔ Contains r.ranges T ∧ Common ls T := by
  induction ls generalizing r with
  | nil => exact ⟨r, rfl, ho, hn, by simp [Common]⟩
  | cons l ls ih =>
    obtain ⟨m, e, o, n, c⟩ := scl_spec (hv l (by simp))
    have s := andRange_spec r m ho o
    obtain ⟨m2, e2, o2, n2, c2⟩ := ih (r.andRange m) s.2.1 (s.2.2 hn n)
      (fun x hx => hv x (by simp [hx]))
    refine ⟨m2, by simp [commonLengths, e, e2], o2, n2, fun T => ?_⟩
    rw [c2, s.1, c]
    simp only [Common, List.forall_mem_cons]
    tauto

theorem common_far {ls : List PathLimits} (hv : ∀ l ∈ ls, Valid l.ds l.v0 l.vn l.a l.vmax) {T : Int}
    (h1 : bigT ≤ T) (h2 : T < i64Max) : Common ls T := fun l hl =>
  ⟨SideOK.far (hv l hl) h1 h2, SideOK.far (hv l hl).neg h1 h2⟩

theorem shortest_T {ds v0 vn a vmax : Int} (h : Valid ds v0 vn a vmax) :
    ∃ T, shortestCurve ds v0 vn a vmax = adjustCurve T ds v0 vn a ∧ T ≤ bigT ∧
      SideOK ds v0 vn a vmax T ∧ SideOK (-ds) (-v0) (-vn) a vmax T ∧
      ∀ x, SideOK ds v0 vn a vmax x → SideOK (-ds) (-v0) (-vn) a vmax x → T ≤ x := by
  obtain ⟨m, e, o, n, c⟩ := scl_spec h
  have far : Contains m.ranges bigT :=
    (c bigT).2 ⟨SideOK.far h le_rfl bigT_lt, SideOK.far h.neg le_rfl bigT_lt⟩
  obtain ⟨t, u, b1, b2, b3⟩ := bounds_spec m o n bigT far
  refine ⟨t, ?_, b3 _ far, ((c t).1 b2).1, ((c t).1 b2).2, fun x h1 h2 => b3 x ((c x).2 ⟨h1, h2⟩)⟩
  simp [shortestCurve, e, b1]

theorem sequences_T {ls : List PathLimits} (hne : ls ≠ [])
    (hv : ∀ l ∈ ls, Valid l.ds l.v0 l.vn l.a l.vmax) :
    ∃ T, shortestCurveSequences ls = ls.mapM (fun l => do
        let path ← adjustCurve T l.ds l.v0 l.vn l.a
        path.accSeq) ∧ 1 ≤ T ∧ T ≤ bigT ∧ Common ls T ∧ ∀ x, Common ls x → T ≤ x := by
  have hi : i64Min < i64Max := by norm_num [i64Min, i64Max]
  have o1 : (MultiRange.new : MultiRange Int).or i64Min i64Max
      = some (MultiRange.new.orBody i64Min i64Max) := by simp [MultiRange.or]; omega
  have s1 := orBody_spec (MultiRange.new : MultiRange Int) i64Min i64Max (by omega)
    (by simp [MultiRange.new, Ordered])
  generalize (MultiRange.new : MultiRange Int).orBody i64Min i64Max = r1 at o1 s1
  obtain ⟨m, e, o, n, c⟩ := commonLengths_spec r1 ls s1.1
    (s1.2.2 (by omega) (by simp [MultiRange.new, AllNonempty])) hv
  have hb := bigT_lt
  have c0 : ∀ T, 1 ≤ T → T < i64Max → Contains r1.ranges T := by
    intro T h1 h2
    rw [s1.2.1]
    right
    have : i64Min ≤ 0 := by norm_num [i64Min]
    omega
  have one : ∀ T, Common ls T → 1 ≤ T ∧ T < i64Max := by
    intro T hT
    obtain ⟨l, hl⟩ := List.exists_mem_of_ne_nil ls hne
    exact ⟨both_pos (hv l hl) (hT l hl).1 (hT l hl).2, (hT l hl).1.1⟩
  have far : Contains m.ranges bigT :=
    (c bigT).2 ⟨c0 _ (by norm_num) hb, common_far hv le_rfl hb⟩
  obtain ⟨t, u, b1, b2, b3⟩ := bounds_spec m o n bigT far
  have hc := ((c t).1 b2).2
  refine ⟨t, ?_, (one t hc).1, b3 _ far, hc, fun x hx => b3 x ((c x).2
    ⟨c0 x (one x hx).1 (one x hx).2, hx⟩)⟩
  simp [shortestCurveSequences, o1, e, b1]

theorem mapM_some_forall₂ {α β : Type*} {f : α → Option β} {l : List α} {r : List β}
    (h : l.mapM f = some r) : List.Forall₂ (fun x y => f x = some y) l r := by
  induction l generalizing r with
  | nil => simp at h; subst h; exact .nil
  | cons x l ih =>
    rw [List.mapM_cons] at h
    cases h1 : f x with
    | none => rw [h1] at h; cases h
    | some y =>
      cases h2 : l.mapM f with
      | none => rw [h1, h2] at h; cases h
      | some ys =>
        rw [h1, h2] at h
        cases h
        exact .cons h1 (ih h2)

theorem mapM_isSome {α β : Type*} {f : α → Option β} {l : List α}
    (h : ∀ x ∈ l, ∃ y, f x = some y) : ∃ r, l.mapM f = some r := by
  induction l with
  | nil => exact ⟨[], rfl⟩
  | cons x l ih =>
    obtain ⟨y, hy⟩ := h x (by simp)
    obtain ⟨r, hr⟩ := ih (fun z hz => h z (by simp [hz]))
    exact ⟨y :: r, by rw [List.mapM_cons, hy, hr]; rfl⟩

end StepperPaths.IntegerCurve
