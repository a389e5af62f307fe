import Verif.Proof.Segments
import Mathlib.Topology.Order.IntermediateValue
import Mathlib.Analysis.SpecialFunctions.Log.Base
import Mathlib.Analysis.SpecificLimits.Basic

/-! Proofs about `eval_int` and `find_param`, `Verif.Model.SqrtPoly`. -/

namespace StepperPaths.SqrtPoly
open Set

theorem Chain.start {S : ℝ → ℝ} {ε low e v : ℝ} {segs : List Segment}
    (h : Chain S ε low segs e v) (t : Segment) (ht : t.start = e) (hv : t.int[0]? = some v) :
    ∃ s, (segs ++ [t])[0]? = some s ∧ s.start = low ∧ s.int[0]? = some 0 := by
  induction h generalizing t with
  | nil => exact ⟨t, rfl, ht, hv⟩
  | @snoc segs e v s1 w hc hs hi hw hd ih =>
    obtain ⟨s, h1, h2⟩ := ih s1 hs hi
    exact ⟨s, by rw [List.getElem?_append_left (by simp)]; exact h1, h2⟩

/-- A finished table: `high` is the last parameter, `v` the value there. -/
structure Table (S : ℝ → ℝ) (ε low high v : ℝ) (segs : List Segment) : Prop where
  exists_chain : ∃ segs' int, segs = segs' ++ [⟨high, int⟩] ∧ Chain S ε low segs' high v ∧
    int[0]? = some v

variable {S : ℝ → ℝ} {ε low high v : ℝ} {segs : List Segment}

theorem Table.le (h : Table S ε low high v segs) : low ≤ high := by
  obtain ⟨segs', int, rfl, hc, hv⟩ := h.exists_chain
  exact hc.le

theorem Table.head (h : Table S ε low high v segs) :
    ∃ s, segs[0]? = some s ∧ s.start = low ∧ s.int[0]? = some 0 := by
  obtain ⟨segs', int, rfl, hc, hv⟩ := h.exists_chain
  exact hc.start _ rfl hv

theorem Table.last (h : Table S ε low high v segs) :
    ∃ s, 0 < segs.length ∧ segs[segs.length - 1]? = some s ∧ s.start = high ∧
      s.int[0]? = some v := by
  obtain ⟨segs', int, rfl, hc, hv⟩ := h.exists_chain
  exact ⟨⟨high, int⟩, by simp, by simp, rfl, hv⟩

theorem Table.piece (h : Table S ε low high v segs) {i : ℕ} {s s' : Segment}
    (h1 : segs[i]? = some s) (h2 : segs[i + 1]? = some s') :
    ∃ v', s'.int[0]? = some v' ∧ Piece S ε low s (s'.start - s.start) v' := by
  obtain ⟨segs', int, rfl, hc, hv⟩ := h.exists_chain
  exact hc.piece _ rfl hv h1 h2

/-- At the start of every segment the table is right up to the error. -/
theorem Table.node (h : Table S ε low high v segs) {i : ℕ} {s : Segment}
    (h1 : segs[i]? = some s) {F : ℝ → ℝ} (hF : ∀ t, HasDerivAt F (S t) t) (hF0 : F low = 0) :
    ∃ v0, s.int[0]? = some v0 ∧ low ≤ s.start ∧ |v0 - F s.start| ≤ ε * (s.start - low) := by
  have hi : i < segs.length := (List.getElem?_eq_some_iff.1 h1).1
  by_cases hl : i + 1 < segs.length
  · obtain ⟨v', -, hp⟩ := h.piece h1 (List.getElem?_eq_getElem hl)
    obtain ⟨v0, hv0⟩ := hp.first
    refine ⟨v0, hv0, hp.above, ?_⟩
    have := hp.error F hF hF0 0 ⟨le_rfl, hp.pos.le⟩
    rwa [polyval_zero hv0, add_zero] at this
  · obtain ⟨segs', int, rfl, hc, hv⟩ := h.exists_chain
    have : i = segs'.length := by
      rw [List.length_append, List.length_singleton] at hi hl; omega
    subst this
    rw [List.getElem?_append_right le_rfl, Nat.sub_self, List.getElem?_cons_zero,
      Option.some.injEq] at h1
    subst h1
    exact ⟨v, hv, hc.le, hc.error hF hF0⟩

/-! ### `eval_int` -/

theorem evalInt_spec (h : Table S ε low high v segs) {t : ℝ} (ht : t ∈ Icc low high)
    {ans : Except ℕ ℕ} (ha : Found (segs.map (·.start)) t ans) {F : ℝ → ℝ}
    (hF : ∀ t, HasDerivAt F (S t) t) (hF0 : F low = 0) :
    ∃ y, evalIntAt segs t ans = some y ∧ |y - F t| ≤ ε * (t - low) := by
  cases ha with
  | @ok i hi =>
    rw [List.getElem?_map] at hi
    obtain ⟨s, hs, hst⟩ := Option.map_eq_some_iff.1 hi
    obtain ⟨v0, hv0, -, he⟩ := h.node hs hF hF0
    refine ⟨v0, ?_, by rwa [hst] at he⟩
    simp only [evalIntAt, hs]
    exact hv0
  | @err i hi hb haft =>
    obtain ⟨s0, hs0, hs1, -⟩ := h.head
    obtain ⟨sl, hl0, hl1, hl2, -⟩ := h.last
    rw [List.length_map] at hi
    have hi0 : i ≠ 0 := by
      rintro rfl
      have := haft 0 s0.start le_rfl (by rw [List.getElem?_map, hs0]; rfl)
      rw [hs1] at this
      exact absurd ht.1 (not_le.2 this)
    have hil : i < segs.length := by
      by_contra hge
      have := hb (segs.length - 1) sl.start (by omega) (by rw [List.getElem?_map, hl1]; rfl)
      rw [hl2] at this
      exact absurd ht.2 (not_le.2 this)
    have g1 : segs[i - 1]? = some segs[i - 1] := List.getElem?_eq_getElem (by omega)
    have g2 : segs[i - 1 + 1]? = some segs[i] := by
      rw [Nat.sub_add_cancel (by omega)]; exact List.getElem?_eq_getElem hil
    obtain ⟨v', -, hp⟩ := h.piece g1 g2
    have k1 := hb (i - 1) (segs[i - 1]).start (by omega) (by rw [List.getElem?_map, g1]; rfl)
    have k2 := haft i (segs[i]).start le_rfl
      (by rw [List.getElem?_map, List.getElem?_eq_getElem hil]; rfl)
    refine ⟨polyval (segs[i - 1]).int (t - (segs[i - 1]).start), ?_, ?_⟩
    · simp only [evalIntAt]
      rw [if_neg hi0, g1]
      rfl
    · have := hp.error F hF hF0 (t - (segs[i - 1]).start) ⟨by linarith, by linarith⟩
      rwa [show (segs[i - 1]).start + (t - (segs[i - 1]).start) = t by ring] at this

/-! ### `find_param` -/

theorem epsilon_pos : 0 < epsilon := by unfold epsilon; positivity

theorem bisect_spec (p : List ℝ) (l : ℝ) : ∀ (n : ℕ) (lo hi : ℝ), lo ≤ hi →
    hi - lo ≤ epsilon * 2 ^ n → polyval p lo ≤ l → l < polyval p hi →
    ∃ r, bisect p l lo hi = some r ∧ lo ≤ r ∧ ∃ x ∈ Icc r (r + epsilon), x ≤ hi ∧
      polyval p x = l
  | 0, lo, hi, hle, hn, h1, h2 => by
    refine ⟨lo, ?_, le_rfl, ?_⟩
    · rw [bisect, if_neg]
      rw [pow_zero, mul_one] at hn
      exact not_lt.2 hn
    · obtain ⟨x, hx, hx2⟩ := intermediate_value_Icc hle (polyval_continuous p).continuousOn
        ⟨h1, h2.le⟩
      rw [pow_zero, mul_one] at hn
      exact ⟨x, ⟨hx.1, by linarith [hx.2]⟩, hx.2, hx2⟩
  | n + 1, lo, hi, hle, hn, h1, h2 => by
    rw [bisect]
    by_cases hc : hi - lo > epsilon
    · rw [if_pos hc]
      simp only []
      rw [pow_succ] at hn
      split
      · rename_i hm
        obtain ⟨r, hr, hr1, x, hx, hx2, hx3⟩ := bisect_spec p l n lo ((hi + lo) * (1 / 2))
          (by linarith) (by linarith) h1 hm
        exact ⟨r, hr, hr1, x, hx, by linarith, hx3⟩
      · rename_i hm
        obtain ⟨r, hr, hr1, x, hx, hx2, hx3⟩ := bisect_spec p l n ((hi + lo) * (1 / 2)) hi
          (by linarith) (by linarith) (not_lt.1 hm) h2
        exact ⟨r, hr, by linarith, x, hx, by linarith, hx3⟩
    · rw [if_neg hc]
      refine ⟨lo, rfl, le_rfl, ?_⟩
      obtain ⟨x, hx, hx2⟩ := intermediate_value_Icc hle (polyval_continuous p).continuousOn
        ⟨h1, h2.le⟩
      exact ⟨x, ⟨hx.1, by linarith [hx.2]⟩, hx.2, hx2⟩

theorem exists_doublings (w : ℝ) : ∃ n : ℕ, w ≤ epsilon * 2 ^ n := by
  obtain ⟨n, hn⟩ := pow_unbounded_of_one_lt (w / epsilon) (by norm_num : (1 : ℝ) < 2)
  refine ⟨n, ?_⟩
  rw [div_lt_iff₀ epsilon_pos] at hn
  linarith

theorem pairwise_of_step {keys : List ℝ}
    (h : ∀ i a b, keys[i]? = some a → keys[i + 1]? = some b → a < b) :
    keys.Pairwise (· < ·) := by
  rw [← List.isChain_iff_pairwise, List.isChain_iff_getElem]
  intro i hi
  exact h i _ _ (List.getElem?_eq_getElem (by omega)) (List.getElem?_eq_getElem hi)

theorem Table.starts_sorted (h : Table S ε low high v segs) :
    (segs.map (·.start)).Pairwise (· < ·) := by
  apply pairwise_of_step
  intro i a b ha hb
  rw [List.getElem?_map] at ha hb
  obtain ⟨s, hs, rfl⟩ := Option.map_eq_some_iff.1 ha
  obtain ⟨s', hs', rfl⟩ := Option.map_eq_some_iff.1 hb
  obtain ⟨v', -, hp⟩ := h.piece hs hs'
  linarith [hp.pos]

theorem Table.start_le (h : Table S ε low high v segs) {i : ℕ} {s : Segment}
    (hs : segs[i]? = some s) : s.start ≤ high := by
  have hi : i < segs.length := (List.getElem?_eq_some_iff.1 hs).1
  obtain ⟨sl, hl0, hl1, hl2, -⟩ := h.last
  rcases eq_or_ne i (segs.length - 1) with rfl | hne
  · rw [hl1, Option.some.injEq] at hs
    rw [← hs, hl2]
  · have := List.pairwise_iff_getElem.1 h.starts_sorted i (segs.length - 1)
      (by simpa using hi) (by simpa using hl0) (by omega)
    rw [List.getElem?_eq_some_iff] at hs hl1
    obtain ⟨_, hs⟩ := hs
    obtain ⟨_, hl1⟩ := hl1
    simp only [List.getElem_map, hs, hl1, hl2] at this
    exact this.le

theorem findParam_spec (h : Table S ε low high v segs) {l : ℝ} (hl : l ∈ Icc 0 v)
    {ans : Except ℕ ℕ} (ha : Found (segs.map (fun s => s.int.getD 0 0)) l ans) {F : ℝ → ℝ}
    (hF : ∀ t, HasDerivAt F (S t) t) (hF0 : F low = 0) :
    ∃ t, findParamAt segs l ans = some t ∧ low ≤ t ∧
      ∃ t' ∈ Icc t (t + epsilon), t' ≤ high ∧ |F t' - l| ≤ ε * (t' - low) := by
  have hget : ∀ {s : Segment} {x : ℝ}, s.int[0]? = some x → s.int.getD 0 0 = x := by
    intro s x hx
    rw [List.getD_eq_getElem?_getD, hx]; rfl
  cases ha with
  | @ok i hi =>
    rw [List.getElem?_map] at hi
    obtain ⟨s, hs, hst⟩ := Option.map_eq_some_iff.1 hi
    obtain ⟨v0, hv0, hlow, he⟩ := h.node hs hF hF0
    refine ⟨s.start, ?_, hlow, s.start, ⟨le_rfl, by linarith [epsilon_pos]⟩, h.start_le hs, ?_⟩
    · simp only [findParamAt, hs]; rfl
    · rw [hget hv0] at hst
      rwa [abs_sub_comm, ← hst]
  | @err i hi hb haft =>
    obtain ⟨s0, hs0, -, hs1⟩ := h.head
    obtain ⟨sl, hl0, hl1, -, hl2⟩ := h.last
    rw [List.length_map] at hi
    have hi0 : i ≠ 0 := by
      rintro rfl
      have := haft 0 (s0.int.getD 0 0) le_rfl (by rw [List.getElem?_map, hs0]; rfl)
      rw [hget hs1] at this
      exact absurd hl.1 (not_le.2 this)
    have hil : i < segs.length := by
      by_contra hge
      have := hb (segs.length - 1) (sl.int.getD 0 0) (by omega)
        (by rw [List.getElem?_map, hl1]; rfl)
      rw [hget hl2] at this
      exact absurd hl.2 (not_le.2 this)
    have g1 : segs[i - 1]? = some segs[i - 1] := List.getElem?_eq_getElem (by omega)
    have g3 : segs[i]? = some segs[i] := List.getElem?_eq_getElem hil
    have g2 : segs[i - 1 + 1]? = some segs[i] := by
      rw [Nat.sub_add_cancel (by omega)]; exact g3
    obtain ⟨v', hv', hp⟩ := h.piece g1 g2
    obtain ⟨v0, hv0⟩ := hp.first
    have k1 := hb (i - 1) _ (by omega) (by rw [List.getElem?_map, g1]; rfl)
    have k2 := haft i _ le_rfl (by rw [List.getElem?_map, g3]; rfl)
    simp only [hget hv0] at k1
    simp only [hget hv'] at k2
    obtain ⟨n, hn⟩ := exists_doublings ((segs[i]).start - (segs[i - 1]).start)
    obtain ⟨r, hr, hr0, x, hx, hxw, hxl⟩ := bisect_spec (segs[i - 1]).int l n 0
      ((segs[i]).start - (segs[i - 1]).start) hp.pos.le (by rw [sub_zero]; exact hn)
      (by rw [polyval_zero hv0]; exact k1.le) (by rw [hp.last]; exact k2)
    refine ⟨r + (segs[i - 1]).start, ?_, by linarith [hp.above], (segs[i - 1]).start + x,
      ⟨by linarith [hx.1], by linarith [hx.2]⟩, by linarith [h.start_le g3], ?_⟩
    · simp only [findParamAt]
      rw [if_neg (by omega), g3, g1]
      simp only [Option.bind_eq_bind, Option.bind_some, hr]
    · have := hp.error F hF hF0 x ⟨hr0.trans hx.1, hxw⟩
      rwa [hxl, abs_sub_comm] at this

/-! ### The binary searches have an answer -/

theorem found_exists : ∀ {keys : List ℝ}, keys.Pairwise (· < ·) → ∀ v, ∃ ans, Found keys v ans
  | [], _, v => ⟨.error 0, .err (by simp) (by simp) (by simp)⟩
  | k :: keys, h, v => by
    rw [List.pairwise_cons] at h
    rcases lt_trichotomy k v with hk | hk | hk
    · obtain ⟨ans, ha⟩ := found_exists h.2 v
      cases ha with
      | @ok i hi => exact ⟨.ok (i + 1), .ok (by simpa using hi)⟩
      | @err i hi hb haft =>
        refine ⟨.error (i + 1), .err (by simpa using hi) ?_ ?_⟩
        · intro j x hj hx
          cases j with
          | zero => simp only [List.getElem?_cons_zero, Option.some.injEq] at hx; subst hx; exact hk
          | succ j => exact hb j x (by omega) (by simpa using hx)
        · intro j x hj hx
          cases j with
          | zero => omega
          | succ j => exact haft j x (by omega) (by simpa using hx)
    · exact ⟨.ok 0, .ok (by simp [hk])⟩
    · refine ⟨.error 0, .err (by simp) (by simp) ?_⟩
      intro j x _ hx
      cases j with
      | zero => simp only [List.getElem?_cons_zero, Option.some.injEq] at hx; subst hx; exact hk
      | succ j =>
        rw [List.getElem?_cons_succ] at hx
        exact hk.trans (h.1 x (List.mem_of_getElem? hx))

theorem Table.start_ge (h : Table S ε low high v segs) {i : ℕ} {s : Segment}
    (hs : segs[i]? = some s) : low ≤ s.start := by
  have hi : i < segs.length := (List.getElem?_eq_some_iff.1 hs).1
  obtain ⟨s0, hs0, hs1, -⟩ := h.head
  rcases Nat.eq_zero_or_pos i with rfl | hne
  · rw [hs0, Option.some.injEq] at hs
    rw [← hs, hs1]
  · have := List.pairwise_iff_getElem.1 h.starts_sorted 0 i
      (by rw [List.length_map]; omega) (by simpa using hi) hne
    rw [List.getElem?_eq_some_iff] at hs hs0
    obtain ⟨_, hs⟩ := hs
    obtain ⟨_, hs0⟩ := hs0
    simp only [List.getElem_map, hs, hs0, hs1] at this
    exact this.le

theorem evalInt_below (h : Table S ε low high v segs) {t : ℝ} (ht : t < low)
    {ans : Except ℕ ℕ} (ha : Found (segs.map (·.start)) t ans) :
    evalIntAt segs t ans = none := by
  cases ha with
  | @ok i hi =>
    rw [List.getElem?_map] at hi
    obtain ⟨s, hs', hst⟩ := Option.map_eq_some_iff.1 hi
    have := h.start_ge hs'
    linarith
  | @err i hi hb haft =>
    by_cases h0 : i = 0
    · simp [evalIntAt, h0]
    · obtain ⟨s0, hs0, hs1, -⟩ := h.head
      have := hb 0 s0.start (by omega) (by rw [List.getElem?_map, hs0]; rfl)
      linarith

theorem Table.values_sorted (h : Table S ε low high v segs)
    (hpos : ∀ t ∈ Icc low high, ε < S t) :
    (segs.map (fun s => s.int.getD 0 0)).Pairwise (· < ·) := by
  apply pairwise_of_step
  intro i a b ha hb
  rw [List.getElem?_map] at ha hb
  obtain ⟨s, hs, rfl⟩ := Option.map_eq_some_iff.1 ha
  obtain ⟨s', hs', rfl⟩ := Option.map_eq_some_iff.1 hb
  obtain ⟨v', hv', hp⟩ := h.piece hs hs'
  obtain ⟨v0, hv0⟩ := hp.first
  have e1 : s.int.getD 0 0 = v0 := by rw [List.getD_eq_getElem?_getD, hv0]; rfl
  have e2 : s'.int.getD 0 0 = v' := by rw [List.getD_eq_getElem?_getD, hv']; rfl
  simp only [e1, e2]
  rw [← polyval_zero hv0, ← hp.last]
  have hmono : StrictMonoOn (polyval s.int) (Icc 0 (s'.start - s.start)) := by
    apply strictMonoOn_of_deriv_pos (convex_Icc _ _) (polyval_continuous _).continuousOn
    intro x hx
    rw [interior_Icc] at hx
    obtain ⟨d, hd, hd2⟩ := hp.deriv x ⟨hx.1.le, hx.2.le⟩
    rw [hd.deriv]
    have hend := h.start_le hs'
    have := hpos (s.start + x) ⟨by linarith [hp.above, hx.1], by linarith [hx.2]⟩
    rw [abs_le] at hd2
    linarith
  exact hmono ⟨le_rfl, hp.pos.le⟩ ⟨hp.pos.le, le_rfl⟩ hp.pos

/-! ### `build_segments` returns -/

theorem taylorLoop_length {d : Diff} : ∀ {n i : ℕ} {sp : List Term} {fact : ℝ}
    {coeffs r : List ℝ}, taylorLoop d n i sp fact coeffs = some r →
    r.length = coeffs.length + n
  | 0, _, _, _, _, _, h => by
    simp only [taylorLoop, Option.some.injEq] at h; subst h; rfl
  | n + 1, i, sp, fact, coeffs, r, h => by
    rw [taylorLoop] at h
    obtain ⟨⟨sp1, v⟩, hd, h1⟩ := Option.bind_eq_some_iff.1 h
    rw [taylorLoop_length h1, List.length_append, List.length_singleton]
    omega

theorem taylorSequence_length {p : List ℝ} {t0 : ℝ} {r : List ℝ}
    (h : taylorSequence p t0 7 = some r) : r.length = 7 := taylorLoop_length h

theorem setFirst_isSome (p : List ℝ) (v : ℝ) : ∃ r, setFirst (polyint p) v = some r := ⟨_, rfl⟩

theorem ne_nil_of_length {r : List ℝ} {n : ℕ} (h : r.length = n + 1) : r ≠ [] := by
  rintro rfl; simp at h

theorem segLoop_isSome {p : List ℝ} (hp : 2 ≤ p.length) (low step : ℝ) :
    ∀ (n i : ℕ) (prev : List ℝ) (sum : ℝ) (segs : List Segment), prev.length = 7 →
    ∃ r, segLoop p low step n i prev sum segs = some r ∧ r.1.length = 7
  | 0, i, prev, sum, segs, h => ⟨_, rfl, h⟩
  | n + 1, i, prev, sum, segs, h => by
    obtain ⟨seq, hseq⟩ := taylorSequence_isSome hp (low + step * ((i : ℝ) + 1 / 2)) 7
    have hlen := taylorSequence_length hseq
    obtain ⟨o, ho⟩ := (polyoffset_isSome (p := seq) (off := -step)).2 (by omega)
    have holen := (polyoffset_spec ho 0).2
    obtain ⟨w, hw⟩ := polyweight_isSome (a := prev) (b := o) (ta := 0) (tb := step)
      (ne_nil_of_length h) (ne_nil_of_length (holen.trans hlen))
    obtain ⟨int, hint⟩ := setFirst_isSome w sum
    obtain ⟨r, hr, hr1⟩ := segLoop_isSome hp low step n (i + 1) seq
      (sum + polyval (polyint w) step)
      (segs ++ [⟨low + step * ((i : ℝ) + 1 / 2) - step, int⟩]) hlen
    refine ⟨r, ?_, hr1⟩
    rw [segLoop]
    simp only [hseq, Option.bind_eq_bind, Option.bind_some, ho, hw, hint]
    exact hr

theorem buildSegments_isSome {p : List ℝ} (hp : 2 ≤ p.length) (low high : ℝ) (n : ℕ) :
    ∃ r, buildSegments p low high n = some r := by
  rw [buildSegments]
  simp only []
  obtain ⟨prev, hprev⟩ := taylorSequence_isSome hp ((high - low) / ((n + 1 : ℕ) : ℝ) * (1 / 2)) 7
  have hlen := taylorSequence_length hprev
  obtain ⟨o, ho⟩ := (polyoffset_isSome (p := prev)
    (off := -((high - low) / ((n + 1 : ℕ) : ℝ)) * (1 / 2))).2 (by omega)
  obtain ⟨int, hint⟩ := setFirst_isSome o 0
  rw [hprev]
  simp only [Option.bind_eq_bind, Option.bind_some, ho, hint]
  obtain ⟨⟨r1, r2, r3⟩, hr, hr1⟩ := segLoop_isSome hp low ((high - low) / ((n + 1 : ℕ) : ℝ)) n 1
    prev (0 + polyval (polyint o) ((high - low) / ((n + 1 : ℕ) : ℝ) / 2)) [⟨low, int⟩] hlen
  rw [hr]
  simp only [Option.bind_some]
  obtain ⟨int1, hint1⟩ := setFirst_isSome r1 r2
  obtain ⟨o1, ho1⟩ := (polyoffset_isSome (p := r1)
    (off := (high - low) / ((n + 1 : ℕ) : ℝ) * (1 / 2))).2 (by simp only [] at hr1; omega)
  rw [hint1]
  simp only [Option.bind_some, ho1]
  obtain ⟨int2, hint2⟩ := setFirst_isSome o1
    (r2 + polyval (polyint r1) ((high - low) / ((n + 1 : ℕ) : ℝ) * (1 / 2)))
  rw [hint2]
  exact ⟨_, rfl⟩

/-- The table of `build_segments` from zero, with the error of the Taylor polynomials. -/
theorem buildSegments_table {p : List ℝ} {high M : ℝ} {n : ℕ} {segs : List Segment}
    (h : buildSegments p 0 high n = some segs) (hh : 0 < high)
    (hp : ∀ t ∈ Icc 0 high, 0 < polyval p t)
    (hM : ∀ t ∈ Icc 0 high, |iteratedDeriv 7 (speed p) t| ≤ M) :
    ∃ v, Table (speed p) (M * (high / ((n + 1 : ℕ) : ℝ)) ^ 7 / 5040) 0 high v segs := by
  have hM0 : 0 ≤ M := (abs_nonneg _).trans (hM 0 ⟨le_rfl, hh.le⟩)
  obtain ⟨segs', v, int, h1, h2, h3⟩ := buildSegments_spec (S := speed p)
    (ε := M * (high / ((n + 1 : ℕ) : ℝ)) ^ 7 / 5040) h hh (by
      intro m r hm hr t ht hmt
      have hsub : uIcc m t ⊆ Icc 0 high := uIcc_subset_Icc hm ht
      refine (taylor_error hr (fun y hy => hp y (hsub hy)) (fun y hy => hM y (hsub hy))).trans ?_
      have h1 : |t - m| ^ 7 ≤ (high / ((n + 1 : ℕ) : ℝ)) ^ 7 := by gcongr
      have h2 : M * |t - m| ^ 7 ≤ M * (high / ((n + 1 : ℕ) : ℝ)) ^ 7 :=
        mul_le_mul_of_nonneg_left h1 hM0
      exact div_le_div_of_nonneg_right h2 (by norm_num))
  exact ⟨v, ⟨segs', int, h1, h2, h3⟩⟩

theorem integral_hasDerivAt (p : List ℝ) (a t : ℝ) :
    HasDerivAt (fun t => ∫ u in a..t, speed p u) (speed p t) t :=
  intervalIntegral.integral_hasDerivAt_right
    ((speed_continuous p).intervalIntegrable _ _)
    ((speed_continuous p).stronglyMeasurableAtFilter _ _) (speed_continuous p).continuousAt

end StepperPaths.SqrtPoly
