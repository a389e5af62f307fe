import Verif.Proof.LinearCurve

/-! C84: curves walked by estimated lengths. -/

namespace StepperPaths.Props
open Spec LinearCurve

/-- **C84.**  When the lengths of short pieces are known and pieces shrink, `LinearCurve::new`
returns, and `length()` is the length of the curve up to the error `δ` of the estimates. -/
theorem C84_length (L : ℝ → ℝ) (δ ρ η : ℝ) (split : Split) (hs : Estimates L δ split) (hk : Shrinks ρ η split)
    (start stop : ℝ) (hle : start ≤ stop) : ∃ n, new split start stop = some n ∧
      |n.length - (L stop - L start)| ≤ δ * (stop - start) := by
  obtain ⟨n, hn⟩ := Option.isSome_iff_exists.1 (nodeLength_isSome hs hk 0 hle)
  obtain ⟨h1, h2, h3⟩ := nodeLength_inv hs hn _ _ _ rfl hle
  have := h1.len
  rw [h2, h3] at this
  exact ⟨n, hn, this⟩

theorem positions_grown {split : Split} {n n' m : Node} {ss : List ℝ} (hg : Grown split n n')
    (h : positions split n' ss = some m) (hr : ∀ s, (position split n s).isSome) : Grown split n m := by
  induction ss generalizing n' with
  | nil => rw [← Option.some.inj h]; exact hg
  | cons s ss ih =>
    obtain ⟨⟨t, n''⟩, h1, h2⟩ := Option.bind_eq_some_iff.1 h
    obtain ⟨⟨t0, n0⟩, h0⟩ := Option.isSome_iff_exists.1 (hr s)
    obtain ⟨n1, h3, h4⟩ := nodePos_grown h0 n' hg
    rw [position, h3] at h1
    obtain rfl := (Prod.mk.inj (Option.some.inj h1)).2
    exact ih h4 h2

theorem positions_returns {split : Split} {n n' : Node} (ss : List ℝ) (hg : Grown split n n')
    (hr : ∀ s, (position split n s).isSome) : (positions split n' ss).isSome := by
  induction ss generalizing n' with
  | nil => rfl
  | cons s ss ih =>
    obtain ⟨⟨t0, n0⟩, h0⟩ := Option.isSome_iff_exists.1 (hr s)
    obtain ⟨n1, h3, h4⟩ := nodePos_grown h0 n' hg
    rw [positions, position, h3]
    exact ih h4

/-- **C84.**  For a curve whose length is Lipschitz, `position` returns for every position and after
every earlier calls of `position`, which do not influence its result.  It is a parameter in the range
at which the length of the curve is the position, up to 0.00001 and the error of the estimates. -/
theorem C84_position (L : ℝ → ℝ) (δ ρ η K : ℝ) (split : Split) (hs : Estimates L δ split) (hk : Shrinks ρ η split)
    (hδ : 0 ≤ δ) (hK : 0 ≤ K) (hL : ∀ a b, a ≤ b → L b - L a ≤ K * (b - a))
    (start stop : ℝ) (hle : start ≤ stop) : ∃ n, new split start stop = some n ∧
      ∀ s, ∃ t, start ≤ t ∧ t ≤ stop ∧
        (0 ≤ s → s ≤ n.length → |L t - L start - s| ≤ 1 / 100000 + 3 * δ * (stop - start)) ∧
        (s ≤ 1 / 100000 → t = start) ∧ (1 / 100000 < s → n.length - 1 / 100000 ≤ s → t = stop) ∧
        ∀ earlier, ∃ m, positions split n earlier = some m ∧ ∃ m', position split m s = some (t, m') := by
  obtain ⟨n, hn⟩ := Option.isSome_iff_exists.1 (nodeLength_isSome hs hk 0 hle)
  obtain ⟨h1, h2, h3⟩ := nodeLength_inv hs hn _ _ _ rfl hle
  have hr : ∀ s, (position split n s).isSome := by
    intro s
    obtain ⟨k, h⟩ := exists_pow_le hk (show (0 : ℝ) < 2 * (1 / 100000) by norm_num)
      ((K + δ) * (n.tEnd - n.tStart))
    exact nodePos_returns hs hk hK hL k n s h1 h
  refine ⟨n, hn, fun s => ?_⟩
  obtain ⟨⟨t, n'⟩, hp⟩ := Option.isSome_iff_exists.1 (hr s)
  have hmem := nodePos_mem hs hp h1
  rw [h2, h3] at hmem
  refine ⟨t, hmem.1, hmem.2, ?_, ?_, ?_, ?_⟩
  · intro s0 s1
    have hlen := (abs_le.1 h1.len).2
    have := nodePos_length hs hδ (by norm_num) hp h1 s0 (δ * (n.tEnd - n.tStart)) (by linarith)
    rw [max_self, h2, h3] at this
    linarith
  · intro s1
    rw [position, nodePos_eq, if_pos s1] at hp
    rw [← h2]
    exact (Prod.mk.inj (Option.some.inj hp)).1.symm
  · intro s1 s2
    rw [position, nodePos_eq, if_neg (not_le.2 s1), if_pos (by linarith)] at hp
    rw [← h3]
    exact (Prod.mk.inj (Option.some.inj hp)).1.symm
  · intro earlier
    obtain ⟨m, hm⟩ := Option.isSome_iff_exists.1 (positions_returns earlier (.refl n) hr)
    obtain ⟨m', e1, -⟩ := nodePos_grown hp m (positions_grown (.refl n) hm hr)
    exact ⟨m, hm, m', e1⟩

/-- **C84.**  The parameter grows with the position. -/
theorem C84_monotone (L : ℝ → ℝ) (δ : ℝ) (split : Split) (hs : Estimates L δ split)
    (start stop : ℝ) (hle : start ≤ stop) (n : Node) (h : new split start stop = some n)
    (s s' t t' : ℝ) (m m' : Node) (hss : s ≤ s') (h1 : position split n s = some (t, m))
    (h2 : position split n s' = some (t', m')) : t ≤ t' :=
  nodePos_mono hs h1 (nodeLength_inv hs h _ _ _ rfl hle).1 s' (t', m') hss h2

open Classical in
/-- `TestCurve` with a split factor of 0.7 and a maximal length of 0.001, linear_curve.rs 153-178. -/
noncomputable def testCurve : Split := fun a b =>
  (a * (1 - 7 / 10) + b * (7 / 10), if (b - a) * (7 / 10) ≤ 1 / 1000 then some ((b - a) * (7 / 10)) else none,
    if (b - a) * (1 - 7 / 10) ≤ 1 / 1000 then some ((b - a) * (1 - 7 / 10)) else none)

theorem testCurve_estimates : Estimates id 0 testCurve := by
  refine ⟨fun a b h => ⟨?_, ?_⟩, fun a b h x hx => ?_, fun a b h x hx => ?_⟩
  · simp only [testCurve]; linarith
  · simp only [testCurve]; linarith
  · simp only [testCurve] at hx ⊢
    split at hx
    · rw [← Option.some.inj hx]
      simp only [id]
      rw [show (b - a) * (7 / 10) - (a * (1 - 7 / 10) + b * (7 / 10) - a) = 0 by ring]
      simp
    · simp at hx
  · simp only [testCurve] at hx ⊢
    split at hx
    · rw [← Option.some.inj hx]
      simp only [id]
      rw [show (b - a) * (1 - 7 / 10) - (b - (a * (1 - 7 / 10) + b * (7 / 10))) = 0 by ring]
      simp
    · simp at hx

theorem testCurve_shrinks : Shrinks (7 / 10) (1 / 1000) testCurve := by
  refine ⟨by norm_num, by norm_num, by norm_num, fun a b h => ?_, fun a b h => ?_, fun a b h hw => ?_,
    fun a b h hw => ?_⟩
  · simp only [testCurve]; linarith
  · simp only [testCurve]; linarith
  · simp only [testCurve] at hw ⊢
    rw [if_pos (by linarith)]
    simp
  · simp only [testCurve] at hw ⊢
    rw [if_pos (by linarith)]
    simp

/-- The test of the source, for all positions. -/
example : ∃ n, new testCurve 0 1 = some n ∧ n.length = 1 ∧ ∀ s, 0 ≤ s → s ≤ 1 →
    ∃ t m, position testCurve n s = some (t, m) ∧ |t - s| ≤ 1 / 100000 := by
  obtain ⟨n, h1, h2⟩ := C84_position id 0 _ _ 1 testCurve testCurve_estimates testCurve_shrinks le_rfl zero_le_one
    (by intro a b _; simp) 0 1 zero_le_one
  obtain ⟨n', h1', h3⟩ := C84_length id 0 _ _ testCurve testCurve_estimates testCurve_shrinks 0 1 zero_le_one
  obtain rfl : n = n' := by rw [h1] at h1'; exact Option.some.inj h1'
  have hl : n.length = 1 := by
    simp only [id, zero_mul, abs_nonpos_iff] at h3
    linarith
  refine ⟨n, h1, hl, fun s s0 s1 => ?_⟩
  obtain ⟨t, -, -, h4, -, -, h5⟩ := h2 s
  obtain ⟨m, h6, m', h7⟩ := h5 []
  obtain rfl := Option.some.inj h6
  refine ⟨t, m', h7, ?_⟩
  have := h4 s0 (by rw [hl]; exact s1)
  simpa using this

end StepperPaths.Props
