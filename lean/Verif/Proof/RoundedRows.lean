import Verif.Proof.RoundedParam
import Mathlib.Analysis.Calculus.Deriv.MeanValue

/-! The computed table of a curve has the rows it should have. -/

namespace StepperPaths.Rounded.Acc
open Spec SqrtPoly

variable {fl : ℝ → ℝ} {pw : ℝ → ℝ → ℝ} {kb nb q : ℕ} {b' b β : List ℝ} {U r : ℝ}

theorem le_g (k : ℕ) : k / 2 ^ 52 ≤ g k := by
  have h := one_add_mul_le_pow (show (-2 : ℝ) ≤ 1 / 2 ^ 52 by norm_num) k
  unfold g
  have : (k : ℝ) / 2 ^ 52 = k * (1 / 2 ^ 52) := by ring
  linarith

/-- The length up to a parameter. -/
noncomputable def arcOf (b : List ℝ) (t : ℝ) : ℝ := ∫ u in (0 : ℝ)..t, speed b u

theorem arcOf_deriv (b : List ℝ) (t : ℝ) : HasDerivAt (arcOf b) (speed b t) t := integral_hasDerivAt b 0 t

theorem arcOf_bounds {V U : ℝ} (hV : ∀ t, 0 ≤ t → t ≤ 1 → V ≤ speed b t) (hU : ∀ t, 0 ≤ t → t ≤ 1 → speed b t ≤ U) (x y : ℝ)
    (h0 : 0 ≤ x) (hxy : x ≤ y) (h1 : y ≤ 1) : V * (y - x) ≤ arcOf b y - arcOf b x ∧ arcOf b y - arcOf b x ≤ U * (y - x) := by
  have hd : Differentiable ℝ (arcOf b) := fun t => (arcOf_deriv b t).differentiableAt
  have hx : x ∈ Set.Icc (0 : ℝ) 1 := ⟨h0, hxy.trans h1⟩
  have hy : y ∈ Set.Icc (0 : ℝ) 1 := ⟨h0.trans hxy, h1⟩
  constructor
  · refine (convex_Icc (0 : ℝ) 1).mul_sub_le_image_sub_of_le_deriv hd.continuous.continuousOn hd.differentiableOn ?_ x hx y hy hxy
    intro t ht
    rw [interior_Icc] at ht
    rw [(arcOf_deriv b t).deriv]
    exact hV t ht.1.le ht.2.le
  · refine (convex_Icc (0 : ℝ) 1).image_sub_le_mul_sub_of_deriv_le hd.continuous.continuousOn hd.differentiableOn ?_ x hx y hy hxy
    intro t ht
    rw [interior_Icc] at ht
    rw [(arcOf_deriv b t).deriv]
    exact hU t ht.1.le ht.2.le

/-- The error of the values in the table. -/
noncomputable def rowError (kb q : ℕ) (U r : ℝ) : ℝ := g (rowCount kb q + 2000) * (4 * top U r)

theorem Row.value {K : ℕ} {Y : ℝ} {j : ℕ} {s' s : Segment} (hf : FloatRounding fl) (hr : Row K Y j s' s) (hj : j < 11) {x : ℝ}
    (h0 : 0 ≤ x) (hx : x ≤ node (j + 1) - node j + 24 / 2 ^ 52) :
    |polyvalF fl s'.int x - polyval s.int (min x (node (j + 1) - node j))| ≤ g (K + 2000) * (4 * Y) := by
  obtain ⟨w1, w2⟩ := node_step hj
  obtain ⟨I, aI, hI⟩ := hr.int
  have hm0 : 0 ≤ min x (node (j + 1) - node j) := le_min h0 (by linarith)
  have hm1 : min x (node (j + 1) - node j) ≤ node (j + 1) - node j := min_le_right _ _
  have hm2 : min x (node (j + 1) - node j) ≤ x := min_le_left _ _
  have hm3 : x - 24 / 2 ^ 52 ≤ min x (node (j + 1) - node j) := by
    apply le_min
    · have : (0 : ℝ) < 24 / 2 ^ 52 := by norm_num
      linarith
    · linarith
  have ha : App 220 4 x (min x (node (j + 1) - node j)) (11 / 100) := by
    refine ⟨by rw [abs_of_nonneg hm0]; linarith, ?_, .inl (by norm_num)⟩
    rw [abs_of_nonneg (by linarith)]
    have := le_g 220
    push_cast at this
    have h2 : (24 : ℝ) / 2 ^ 52 ≤ 220 / 2 ^ 52 * (11 / 100) := by norm_num
    have h3 := mul_le_mul_of_nonneg_right this (by norm_num : (0 : ℝ) ≤ 11 / 100)
    linarith
  have hl := hr.len
  have h1 := polyval_app hf ha aI (by omega)
  refine (h1.mono (l := K + 2000) (m := 1022) (by omega) (by omega)).err.trans ?_
  exact mul_le_mul_of_nonneg_left hI (g_nonneg _)

theorem Row.key {K : ℕ} {Y : ℝ} {j : ℕ} {s' s : Segment} (hr : Row K Y j s' s) {v : ℝ} (hv : s.int[0]? = some v) :
    ∃ v', s'.int[0]? = some v' ∧ |v' - v| ≤ g (K + 2000) * (4 * Y) := by
  obtain ⟨I, aI, hI⟩ := hr.int
  generalize s'.int = c' at aI ⊢
  generalize s.int = c at aI hv
  cases aI with
  | nil => simp at hv
  | @cons x' x X p' p A h hs =>
    simp only [List.getElem?_cons_zero, Option.some.injEq] at hv
    subst hv
    refine ⟨x', rfl, (h.mono (l := K + 2000) (m := 770) (by omega) le_rfl).err.trans ?_⟩
    refine mul_le_mul_of_nonneg_left (le_trans ?_ hI) (g_nonneg _)
    rw [polyval_cons]
    have : 0 ≤ polyval A (11 / 100) := polyval_nonneg hs.pos (by norm_num)
    linarith

theorem Square.rows (h : Square fl pw kb nb q U r b' b β) {V ε v : ℝ} {segs : List Segment} (hs : buildSegments b 0 1 9 = some segs)
    (ht : Table (speed b) ε 0 1 v segs) (hε : 0 ≤ ε) (hV : 0 < V) (hV' : ∀ t, 0 ≤ t → t ≤ 1 → V ≤ √(polyval b t))
    (hd : 40 * (rowError kb q U r + ε) < V) :
    ∃ segs', buildSegmentsF fl pw b' 0 1 9 = some segs' ∧ FloatRows fl U V (rowError kb q U r + ε) (arcOf b) segs' := by
  obtain ⟨segs', e1, hr⟩ := buildSegments_app h hs
  have hb := arcOf_bounds (b := b) (V := V) (U := U) hV' h.fast
  have hz : arcOf b 0 = 0 := by simp [arcOf]
  have hrow : ∀ j s', segs'[j]? = some s' → ∃ s, segs[j]? = some s ∧ Row (rowCount kb q) (top U r) j s' s := by
    intro j s' hs'
    have hj : j < segs'.length := (List.getElem?_eq_some_iff.1 hs').1
    rw [hr.len', ← hr.len] at hj
    exact ⟨segs[j], List.getElem?_eq_getElem hj, hr.row j s' _ hs' (List.getElem?_eq_getElem hj)⟩
  refine ⟨segs', e1, h.round, hV, hz, fun x y h0 hxy h1 => (hb x y h0 hxy h1).1, fun x y h0 hxy h1 => (hb x y h0 hxy h1).2, hr.len',
    ?_, ?_, ?_, ?_, ?_, ?_, hd⟩
  · intro j s' hs'
    obtain ⟨s, -, hq⟩ := hrow j s' hs'
    refine hq.near.trans ?_
    have := g_le (k := 5) (by norm_num)
    push_cast at this
    linarith
  · intro s' hs'
    obtain ⟨s, -, hq⟩ := hrow 0 s' hs'
    exact hq.first rfl
  · intro s' hs'
    obtain ⟨s, -, hq⟩ := hrow 11 s' hs'
    exact hq.last rfl
  · intro j s' hs'
    obtain ⟨s, hs, hq⟩ := hrow j s' hs'
    obtain ⟨v0, hv0, -, hv⟩ := ht.node hs (arcOf_deriv b) hz
    obtain ⟨v', hv', hd'⟩ := hq.key hv0
    refine ⟨v', hv', ?_⟩
    rw [hq.start, sub_zero] at hv
    have h1 : ε * node j ≤ ε := mul_le_of_le_one_right hε (node_range j).2
    have := abs_sub_le v' v0 (arcOf b (node j))
    unfold rowError
    linarith
  · intro s' hs'
    obtain ⟨s, -, hq⟩ := hrow 0 s' hs'
    exact hq.zero rfl
  · intro j s' hj hs' x h0 hx
    obtain ⟨s, hs, hq⟩ := hrow j s' hs'
    obtain ⟨s2', hs2'⟩ : ∃ s2', segs'[j + 1]? = some s2' := ⟨_, List.getElem?_eq_getElem (by rw [hr.len']; omega)⟩
    obtain ⟨s2, hs2, hq2⟩ := hrow _ s2' hs2'
    obtain ⟨v2, -, hp⟩ := ht.piece hs hs2
    rw [hq2.start, hq.start] at hp
    have h1 := hq.value h.round hj h0 hx
    obtain ⟨w1, w2⟩ := node_step hj
    have hm0 : 0 ≤ min x (node (j + 1) - node j) := le_min h0 (by linarith)
    have hm1 : min x (node (j + 1) - node j) ≤ node (j + 1) - node j := min_le_right _ _
    have h2 := hp.error (arcOf b) (arcOf_deriv b) hz _ ⟨hm0, hm1⟩
    rw [hq.start] at h2
    have h3 : ε * (node j + min x (node (j + 1) - node j) - 0) ≤ ε :=
      mul_le_of_le_one_right hε (by linarith [(node_range (j + 1)).2])
    refine (abs_sub_le _ (polyval s.int (min x (node (j + 1) - node j))) _).trans ?_
    unfold rowError
    linarith

end StepperPaths.Rounded.Acc
