import Verif.Proof.RoundedSegments

/-! The table of `build_segments` with roundings against the exact one. -/

namespace StepperPaths.Rounded.Acc
open Spec SqrtPoly

variable {fl : ℝ → ℝ} {pw : ℝ → ℝ → ℝ} {k n m kb nb q kc nc kS nS K N : ℕ} {c' c C b' b β : List ℝ} {U r s' s S : ℝ}

/-! ### Single pieces -/

theorem piece_app (hf : FloatRounding fl) (hC : Apps kc nc c' c C) (hl : c.length ≤ 8) (hS : App kS nS s' s S)
    (h1 : kc + 1 ≤ K) (h2 : kS ≤ K) (h3 : nc + 4 ≤ N) (h4 : nS ≤ N) (hN : N ≤ 1022) :
    ∃ I, Apps K N (s' :: intFromF fl 0 c') (s :: intFrom 0 c) I ∧ ∀ T, 0 ≤ T → polyval I T ≤ S + T * polyval C T := by
  refine ⟨S :: intFrom 0 C, .cons (hS.mono h2 h4) ((intFrom_app hf (by omega) hC 0 (by omega)).mono h1 h3), ?_⟩
  intro T hT
  rw [polyval_cons]
  have := mul_le_mul_of_nonneg_right (intFrom_le hC.pos hT 0) hT
  linarith

theorem intFrom_length (i : ℕ) (c : List ℝ) : (intFrom i c).length = c.length := by
  induction c generalizing i with
  | nil => rfl
  | cons x c ih => simp [intFrom, ih]

theorem end_app (hf : FloatRounding fl) (hC : Apps kc nc c' c C) (hl : c.length ≤ 8) {x' x X : ℝ} (hx : App 2 5 x' x X)
    (hn : nc + 49 ≤ 1022) :
    ∃ E, App (kc + 37) (nc + 49) (polyvalF fl (polyintF fl c') x') (polyval (polyint c) x) E ∧ E ≤ X * polyval C X := by
  have hi := polyint_app hf (by omega) hC (by omega)
  have h1 : (polyint c).length = c.length + 1 := by simp [polyint, intFrom_length]
  refine ⟨_, (polyval_app hf hx hi (by omega)).mono (by omega) (by omega), polyint_le hC.pos hx.nonneg⟩

/-! ### Rows -/

/-- Where a row of the table begins. -/
noncomputable def node (j : ℕ) : ℝ := if j = 0 then 0 else if j ≤ 10 then ((j : ℝ) - 1 / 2) / 10 else 1

/-- A computed row and the exact one. -/
structure Row (K : ℕ) (Y : ℝ) (j : ℕ) (s' s : Segment) : Prop where
  start : s.start = node j
  near : |s'.start - node j| ≤ g 5 * (11 / 10)
  first : j = 0 → s'.start = 0
  last : j = 11 → s'.start = 1
  zero : j = 0 → s'.int[0]? = some 0
  int : ∃ I, Apps K 770 s'.int s.int I ∧ polyval I (11 / 100) ≤ 4 * Y
  len : s.int.length ≤ 9
  ne : s.int ≠ []

/-- The rows so far. -/
structure Rows (K : ℕ) (Y : ℝ) (i : ℕ) (segs' segs : List Segment) : Prop where
  len' : segs'.length = i
  len : segs.length = i
  row : ∀ j s' s, segs'[j]? = some s' → segs[j]? = some s → Row K Y j s' s

theorem Rows.push {K i : ℕ} {Y : ℝ} {segs' segs : List Segment} (h : Rows K Y i segs' segs) {s' s : Segment} (hs : Row K Y i s' s) :
    Rows K Y (i + 1) (segs' ++ [s']) (segs ++ [s]) := by
  have h1 := h.len'
  have h2 := h.len
  refine ⟨by simp [h1], by simp [h2], ?_⟩
  intro j t' t ht' ht
  rcases lt_trichotomy j i with hj | rfl | hj
  · rw [List.getElem?_append_left (by omega)] at ht' ht
    exact h.row j t' t ht' ht
  · rw [List.getElem?_append_right (by omega), h1] at ht'
    rw [List.getElem?_append_right (by omega), h2] at ht
    simp only [Nat.sub_self, List.getElem?_cons_zero, Option.some.injEq] at ht' ht
    subst ht' ht; exact hs
  · rw [List.getElem?_eq_none (by simp; omega)] at ht
    exact absurd ht (by simp)

/-! ### The loop -/

/-- The bound for the values of the rows. -/
noncomputable def top (U r : ℝ) : ℝ := polyval (seqBound U r) (21 / 100)

theorem Square.bound_pos (h : Square fl pw kb nb q U r b' b β) : Pos (seqBound U r) := by
  intro x hx
  have hr := h.rpos
  have hU := h.U_nonneg
  simp only [seqBound, geoList, List.mem_map] at hx
  obtain ⟨i, -, rfl⟩ := hx
  positivity

theorem Square.bound_le (h : Square fl pw kb nb q U r b' b β) {T : ℝ} (h0 : 0 ≤ T) (h1 : T ≤ 21 / 100) :
    polyval (seqBound U r) T ≤ top U r := polyval_mono h.bound_pos h0 h1

theorem Square.top_nonneg (h : Square fl pw kb nb q U r b' b β) : 0 ≤ top U r := polyval_nonneg h.bound_pos (by norm_num)

/-- The number of roundings for a number in the table. -/
def rowCount (kb q : ℕ) : ℕ := seqCount kb q + 130

theorem step_inv {h' : ℝ} (hf : FloatRounding fl) (hh : App 1 4 h' (1 / 10) (1 / 10)) :
    App 2 4 (fl (h' - 0)) (1 / 10) (1 / 10) ∧ App 5 0 (fl (1 / fl (h' - 0))) (1 / (1 / 10)) 10 := by
  have h1 : App 2 4 (fl (h' - 0)) (1 / 10) (1 / 10) := by rw [sub_zero]; exact hh.rnd hf (by norm_num)
  refine ⟨h1, ?_⟩
  have e : |(1 / 10 : ℝ)| = 1 / 10 := by norm_num
  have h2 : App 2 4 (fl (h' - 0)) (1 / 10) |(1 / 10 : ℝ)| := by rw [e]; exact h1
  have h3 := (App.inv (m := 0) h2 (by norm_num) ((g_le (by norm_num)).trans (by norm_num)) (by norm_num)).rnd hf (by norm_num)
  rw [e] at h3
  exact h3.wide (by norm_num)

theorem step_inv_neg {h' : ℝ} (hf : FloatRounding fl) (hh : App 1 4 h' (1 / 10) (1 / 10)) :
    App 5 0 (fl (1 / fl (0 - h'))) (1 / (0 - 1 / 10)) 10 ∧ App 6 4 (fl (-h' / fl (0 - h'))) (-(1 / 10) / (0 - 1 / 10)) 1 := by
  have h1 : App 2 4 (fl (0 - h')) (0 - 1 / 10) (1 / 10) := by
    rw [zero_sub, zero_sub]; exact hh.neg.rnd hf (by norm_num)
  have e : |(0 - 1 / 10 : ℝ)| = 1 / 10 := by norm_num
  have h2 : App 2 4 (fl (0 - h')) (0 - 1 / 10) |(0 - 1 / 10 : ℝ)| := by rw [e]; exact h1
  have h3 := App.inv (m := 0) h2 (by norm_num) ((g_le (by norm_num)).trans (by norm_num)) (by norm_num)
  rw [e] at h3
  refine ⟨(h3.rnd hf (by norm_num)).wide (by norm_num), ?_⟩
  have h4 := (hh.neg.mul h3).rnd hf (by norm_num)
  rw [mul_one_div, mul_one_div] at h4
  exact h4.wide (by norm_num)

/-- The polynomial between two Taylor polynomials. -/
theorem weight_app (hf : FloatRounding fl) {h' : ℝ} (hh : App 1 4 h' (1 / 10) (1 / 10)) {V p' p o' o O w : List ℝ} {k : ℕ}
    (hp : Apps k 681 p' p V) (hl : p.length = 7) (ho : Apps (k + 65) 709 o' o O) (hlo : o.length = 7)
    (hO : ∀ T, polyval O T = polyval V (T + 1 / 10)) (hw : polyweight p 0 o (1 / 10) = some w) :
    ∃ w' W, polyweightF fl p' 0 o' h' = some w' ∧ Apps (k + 80) 713 w' w W ∧ w.length = 8 ∧
      ∀ T, polyval W T = (1 + 10 * T) * polyval V T + 10 * T * polyval V (T + 1 / 10) := by
  obtain ⟨-, hi2⟩ := step_inv hf hh
  obtain ⟨hn1, hn2⟩ := step_inv_neg hf hh
  have hw1 : Apps 6 4 [fl (-h' / fl (0 - h')), fl (1 / fl (0 - h'))] [-(1 / 10) / (0 - 1 / 10), 1 / (0 - 1 / 10)] [1, 10] :=
    .cons hn2 (.cons (hn1.mono (by norm_num) (by norm_num)) .nil)
  have hw2 : Apps 6 4 [fl (-0 / fl (h' - 0)), fl (1 / fl (h' - 0))] [-0 / (1 / 10 - 0), 1 / (1 / 10 - 0)] [0, 10] := by
    rw [neg_zero, zero_div, zero_div, fl_zero hf, sub_zero (1 / 10 : ℝ)]
    exact .cons (App.zero _ _ le_rfl) (.cons (hi2.mono (by norm_num) (by norm_num)) .nil)
  rw [polyweight] at hw
  obtain ⟨x, hx, hw⟩ := Option.bind_eq_some_iff.1 hw
  obtain ⟨y, hy, hw⟩ := Option.bind_eq_some_iff.1 hw
  rw [Option.some.injEq] at hw
  obtain ⟨x', X, ex', eX, ax⟩ := (polymul_app hf (by norm_num) hw1 hp).some hx
  obtain ⟨y', Y, ey', eY, ay⟩ := (polymul_app hf (by norm_num) hw2 ho).some hy
  have hadd := polyadd_app hf (n := 713) (k := k + 79) (by norm_num) (ax.mono (by omega) (by norm_num)) (ay.mono (by omega) (by norm_num))
  refine ⟨polyaddF fl x' y', polyadd X Y, ?_, ?_, ?_, ?_⟩
  · rw [polyweightF, ex', Option.bind_eq_bind, Option.bind_some, ey']; rfl
  · rw [← hw]; exact hadd
  · rw [← hw, polyadd_length, polymul_length hx, polymul_length hy]; simp [hl, hlo]
  · intro T
    rw [← toPoly_eval, polyadd_toPoly, Polynomial.eval_add, polymul_toPoly eX, polymul_toPoly eY, Polynomial.eval_mul,
      Polynomial.eval_mul, toPoly_eval, toPoly_eval, toPoly_eval, toPoly_eval, hO]
    simp only [polyval, List.foldr]
    ring

theorem node_mid {i : ℕ} (h1 : 1 ≤ i) (h2 : i ≤ 10) : node i = ((i : ℝ) - 1 / 2) / 10 := by
  rw [node, if_neg (by omega), if_pos h2]

/-- The points of expansion. -/
theorem mid_app (hf : FloatRounding fl) {h' : ℝ} (hh : App 1 4 h' (1 / 10) (1 / 10)) (i : ℕ) :
    App 4 5 (fl (0 + fl (h' * fl ((i : ℝ) + 1 / 2)))) (0 + 1 / 10 * ((i : ℝ) + 1 / 2)) (0 + 1 / 10 * ((i : ℝ) + 1 / 2)) := by
  have h1 : App 0 1 ((i : ℝ) + 1 / 2) ((i : ℝ) + 1 / 2) ((i : ℝ) + 1 / 2) := by
    have : (0 : ℝ) ≤ i := by positivity
    exact App.exact (by rw [abs_of_nonneg (by positivity)]) (.inl (by linarith))
  have h2 := (hh.mul (h1.rnd hf (by norm_num))).rnd hf (by norm_num)
  rw [zero_add, zero_add]
  exact h2.rnd hf (by norm_num)

theorem start_app (hf : FloatRounding fl) {h' : ℝ} (hh : App 1 4 h' (1 / 10) (1 / 10)) {i : ℕ} (h1 : 1 ≤ i) (h2 : i ≤ 9) :
    |fl (fl (0 + fl (h' * fl ((i : ℝ) + 1 / 2))) - h') - node i| ≤ g 5 * (11 / 10) := by
  have h3 := (((mid_app hf hh i).mono (by norm_num : 4 ≤ 4) (by norm_num : 5 ≤ 5)).sub
    (hh.mono (by norm_num : 1 ≤ 4) (by norm_num : 4 ≤ 5))).rnd hf (by norm_num)
  have h4 : (i : ℝ) ≤ 9 := by exact_mod_cast h2
  have h5 := (h3.wide (Y := 11 / 10) (by linarith)).err
  rw [node_mid h1 (by omega)]
  rw [show (0 : ℝ) + 1 / 10 * ((i : ℝ) + 1 / 2) - 1 / 10 = ((i : ℝ) - 1 / 2) / 10 by ring] at h5
  exact h5

theorem segLoop_app (h : Square fl pw kb nb q U r b' b β) {h' : ℝ} (hh : App 1 4 h' (1 / 10) (1 / 10)) :
    ∀ (n i : ℕ) (prev' prev : List ℝ) (sum' sum S : ℝ) (segs' segs : List Segment) (res : List ℝ × ℝ × List Segment),
      i + n = 10 → 1 ≤ i → Apps (seqCount kb q) 681 prev' prev (seqBound U r) → prev.length = 7 →
      App (seqCount kb q + 117 + i) 770 sum' sum S → S ≤ 3 / 10 * i * top U r → Rows (rowCount kb q) (top U r) i segs' segs →
      segLoop b 0 (1 / 10) n i prev sum segs = some res →
      ∃ res' S', segLoopF fl pw b' 0 h' n i prev' sum' segs' = some res' ∧ Apps (seqCount kb q) 681 res'.1 res.1 (seqBound U r) ∧
        res.1.length = 7 ∧ App (seqCount kb q + 127) 770 res'.2.1 res.2.1 S' ∧ S' ≤ 3 * top U r ∧
        Rows (rowCount kb q) (top U r) 10 res'.2.2 res.2.2
  | 0, i, prev', prev, sum', sum, S, segs', segs, res, hi, h1, hp, hl, hs, hS, hr, he => by
    simp only [segLoop, Option.some.injEq] at he
    subst he
    obtain rfl : i = 10 := by omega
    exact ⟨_, S, rfl, hp, hl, hs, by norm_num at hS; linarith, hr⟩
  | n + 1, i, prev', prev, sum', sum, S, segs', segs, res, hi, h1, hp, hl, hs, hS, hr, he => by
    have hf := h.round
    have hi' : (i : ℝ) ≤ 9 := by exact_mod_cast (show i ≤ 9 by omega)
    have hY := h.top_nonneg
    simp only [segLoop] at he
    obtain ⟨c, hc, he⟩ := Option.bind_eq_some_iff.1 he
    obtain ⟨o, ho, he⟩ := Option.bind_eq_some_iff.1 he
    obtain ⟨w, hw, he⟩ := Option.bind_eq_some_iff.1 he
    simp only [polyint, setFirst, Option.bind_eq_bind, Option.bind_some] at he
    have hlc := taylorSequence_length hc
    obtain ⟨c', ec', ac⟩ := h.seq ((mid_app hf hh i).mono (by norm_num) le_rfl) (by linarith) hc
    obtain ⟨o', O, eo', eO, ao⟩ := (polyoffset_app hf (d := 6) ac hh.neg hlc (by norm_num)).some ho
    obtain ⟨w', W, ew', aw, hlw, hW⟩ := weight_app hf hh hp hl (ao.mono (by omega) (by norm_num)) ((polyoffset_spec ho 0).2.trans hlc)
      (fun T => (polyoffset_spec eO T).1) hw
    obtain ⟨E, aE, hE⟩ := end_app hf aw (by omega) (hh.mono (by norm_num) (by norm_num)) (by norm_num)
    obtain ⟨I, aI, hI⟩ := piece_app hf (K := rowCount kb q) (N := 770) aw (by omega) hs (by unfold rowCount; omega)
      (by unfold rowCount; omega) (by norm_num) le_rfl (by norm_num)
    have v1 := h.bound_le (T := 1 / 10) (by norm_num) (by norm_num)
    have v2 := h.bound_le (T := 1 / 10 + 1 / 10) (by norm_num) (by norm_num)
    have v3 := h.bound_le (T := 11 / 100) (by norm_num) (by norm_num)
    have v4 := h.bound_le (T := 11 / 100 + 1 / 10) (by norm_num) (by norm_num)
    have hrow : Row (rowCount kb q) (top U r) i ⟨fl (fl (0 + fl (h' * fl ((i : ℝ) + 1 / 2))) - h'), sum' :: intFromF fl 0 w'⟩
        ⟨0 + 1 / 10 * ((i : ℝ) + 1 / 2) - 1 / 10, sum :: intFrom 0 w⟩ := by
      refine ⟨?_, start_app hf hh h1 (by omega), by omega, by omega, by omega, ⟨I, aI, ?_⟩, by simp [intFrom_length, hlw], by simp⟩
      · rw [node_mid h1 (by omega)]; ring
      · refine (hI _ (by norm_num)).trans ?_
        rw [hW]
        have : 3 / 10 * (i : ℝ) * top U r ≤ 27 / 10 * top U r := mul_le_mul_of_nonneg_right (by linarith) hY
        linarith
    have hsum := (hs.add (aE.mono (by omega : _ ≤ seqCount kb q + 117 + i) (by norm_num : _ ≤ 770))).rnd hf (by norm_num)
    obtain ⟨res', S', e1, e2⟩ := segLoop_app h hh n (i + 1) c' c _ _ (S + E) _ _ res (by omega) (by omega) ac hlc
      hsum (by
        rw [hW] at hE
        push_cast
        linarith) (hr.push hrow) he
    refine ⟨res', S', ?_, e2⟩
    simp only [segLoopF, ec', eo', ew', polyintF, setFirst, Option.bind_eq_bind, Option.bind_some]
    exact e1

/-- The table of `build_segments`. -/
theorem buildSegments_app (h : Square fl pw kb nb q U r b' b β) {segs : List Segment} (hs : buildSegments b 0 1 9 = some segs) :
    ∃ segs', buildSegmentsF fl pw b' 0 1 9 = some segs' ∧ Rows (rowCount kb q) (top U r) 12 segs' segs := by
  have hf := h.round
  have hY := h.top_nonneg
  have hh : App 1 4 (fl (fl (1 - 0) / ((9 + 1 : ℕ) : ℝ))) (1 / 10) (1 / 10) := by
    have h1 : fl (1 - 0) = 1 := by rw [sub_zero]; simpa using hf.int 1 (by norm_num)
    rw [h1, show ((1 : ℝ) / ((9 + 1 : ℕ) : ℝ)) = 1 / 10 by norm_num]
    exact (App.exact (by norm_num) (.inl (by norm_num))).rnd hf (by norm_num)
  rw [buildSegments] at hs
  rw [show (((1 : ℝ) - 0) / ((9 + 1 : ℕ) : ℝ)) = 1 / 10 by norm_num] at hs
  rw [buildSegmentsF]
  generalize fl (fl (1 - 0) / ((9 + 1 : ℕ) : ℝ)) = h' at hh
  dsimp only at hs ⊢
  obtain ⟨c, hc, hs⟩ := Option.bind_eq_some_iff.1 hs
  obtain ⟨o, ho, hs⟩ := Option.bind_eq_some_iff.1 hs
  simp only [polyint, setFirst, Option.bind_eq_bind, Option.bind_some] at hs
  obtain ⟨res, hres, hs⟩ := Option.bind_eq_some_iff.1 hs
  obtain ⟨o2, ho2, hs⟩ := Option.bind_eq_some_iff.1 hs
  simp only [Option.some.injEq] at hs
  have hlc := taylorSequence_length hc
  have half : App 2 5 (fl (h' * (1 / 2))) (1 / 10 * (1 / 2)) (1 / 10 * (1 / 2)) :=
    (hh.mul (App.exact (n := 1) (x := 1 / 2) (X := 1 / 2) (by norm_num) (.inl (by norm_num)))).rnd hf (by norm_num)
  have half' : App 2 5 (fl (h' / 2)) (1 / 10 / 2) (1 / 10 / 2) := by
    have := (hh.divNat (b := 2) (m := 1) (by norm_num) (by norm_num)).rnd hf (by norm_num)
    exact_mod_cast this
  have nhalf : App 2 5 (fl (-h' * (1 / 2))) (-(1 / 10) * (1 / 2)) (1 / 10 * (1 / 2)) :=
    (hh.neg.mul (App.exact (n := 1) (x := 1 / 2) (X := 1 / 2) (by norm_num) (.inl (by norm_num)))).rnd hf (by norm_num)
  obtain ⟨c', ec', ac⟩ := h.seq (half.mono (by norm_num) le_rfl) (by norm_num) hc
  obtain ⟨o', O, eo', eO, ao⟩ := (polyoffset_app hf (d := 6) ac nhalf hlc (by norm_num)).some ho
  have hlo := (polyoffset_spec ho 0).2.trans hlc
  obtain ⟨E, aE, hE⟩ := end_app hf ao (by omega) half' (by norm_num)
  obtain ⟨I, aI, hI⟩ := piece_app hf (K := rowCount kb q) (N := 770) ao (by omega) (App.zero 0 0 (le_refl (0 : ℝ))) (by unfold rowCount; omega)
      (by unfold rowCount; omega) (by norm_num) (by norm_num) (by norm_num)
  have v1 := h.bound_le (T := 1 / 10 / 2 + 1 / 10 * (1 / 2)) (by norm_num) (by norm_num)
  have v2 := h.bound_le (T := 11 / 100 + 1 / 10 * (1 / 2)) (by norm_num) (by norm_num)
  have v3 := h.bound_le (T := 11 / 100) (by norm_num) (by norm_num)
  have v4 := h.bound_le (T := 1 / 10 * (1 / 2)) (by norm_num) (by norm_num)
  have hrow : Row (rowCount kb q) (top U r) 0 ⟨0, 0 :: intFromF fl 0 o'⟩ ⟨0, 0 :: intFrom 0 o⟩ := by
    have e : node 0 = 0 := by simp [node]
    refine ⟨by rw [e], by rw [e, sub_zero, abs_zero]; exact mul_nonneg (g_nonneg _) (by norm_num), fun _ => rfl, by simp, fun _ => rfl, ⟨I, aI, ?_⟩,
      by simp [intFrom_length, hlo], by simp⟩
    refine (hI _ (by norm_num)).trans ?_
    rw [(polyoffset_spec eO _).1]
    linarith
  have hrows : Rows (rowCount kb q) (top U r) 1 [⟨0, 0 :: intFromF fl 0 o'⟩] [⟨0, 0 :: intFrom 0 o⟩] := by
    have h0 : Rows (rowCount kb q) (top U r) 0 [] [] := ⟨rfl, rfl, by simp⟩
    exact h0.push hrow
  have hsum : App (seqCount kb q + 117 + 1) 770 (fl (0 + polyvalF fl (polyintF fl o') (fl (h' / 2)))) (0 + polyval (polyint o) (1 / 10 / 2)) E := by
    rw [zero_add, zero_add]
    exact (aE.rnd hf (by norm_num)).mono (by omega) (by norm_num)
  obtain ⟨res', S, e1, a1, l1, a2, hS, rows⟩ := segLoop_app h hh 9 1 c' c _ _ E _ _ res (by norm_num) le_rfl ac hlc hsum (by
    rw [(polyoffset_spec eO _).1] at hE
    push_cast
    linarith) hrows hres
  obtain ⟨o2', O2, eo2', eO2, ao2⟩ := (polyoffset_app hf (d := 6) a1 half l1 (by norm_num)).some ho2
  have hlo2 := (polyoffset_spec ho2 0).2.trans l1
  obtain ⟨E2, aE2, hE2⟩ := end_app hf a1 (by omega) half (by norm_num)
  obtain ⟨I2, aI2, hI2⟩ := piece_app hf (K := rowCount kb q) (N := 770) a1 (by omega) a2 (by unfold rowCount; omega)
      (by unfold rowCount; omega) (by norm_num) le_rfl (by norm_num)
  have hsum2 := (a2.add (aE2.mono (by omega : _ ≤ seqCount kb q + 127) (by norm_num : _ ≤ 770))).rnd hf (by norm_num)
  obtain ⟨I3, aI3, hI3⟩ := piece_app hf (K := rowCount kb q) (N := 770) ao2 (by omega) hsum2 (by unfold rowCount; omega)
      (by unfold rowCount; omega) (by norm_num) le_rfl (by norm_num)
  have hrow10 : Row (rowCount kb q) (top U r) 10 ⟨fl (1 - fl (h' / 2)), res'.2.1 :: intFromF fl 0 res'.1⟩
      ⟨1 - 1 / 10 / 2, res.2.1 :: intFrom 0 res.1⟩ := by
    refine ⟨by rw [node_mid (by norm_num) le_rfl]; norm_num, ?_, by simp, by simp, by simp, ⟨I2, aI2, ?_⟩, by simp [intFrom_length, l1], by simp⟩
    · have h1 : App 2 5 (1 : ℝ) 1 1 := (App.exact (n := 0) (by norm_num) (.inl (by norm_num))).mono (by norm_num) (by norm_num)
      have := (((h1.sub half').rnd hf (by norm_num)).mono (l := 5) (m := 5) (by norm_num) le_rfl).wide (Y := 11 / 10) (by norm_num)
      rw [node_mid (by norm_num) le_rfl, show ((10 : ℕ) - 1 / 2 : ℝ) / 10 = 1 - 1 / 10 / 2 by norm_num]
      exact this.err
    · refine (hI2 _ (by norm_num)).trans ?_
      linarith
  have hrow11 : Row (rowCount kb q) (top U r) 11
      ⟨1, fl (res'.2.1 + polyvalF fl (polyintF fl res'.1) (fl (h' * (1 / 2)))) :: intFromF fl 0 o2'⟩
      ⟨1, (res.2.1 + polyval (polyint res.1) (1 / 10 * (1 / 2))) :: intFrom 0 o2⟩ := by
    have e : node 11 = 1 := by simp [node]
    refine ⟨by rw [e], by rw [e, sub_self, abs_zero]; exact mul_nonneg (g_nonneg _) (by norm_num), by simp, fun _ => rfl, by simp, ⟨I3, aI3, ?_⟩,
      by simp [intFrom_length, hlo2], by simp⟩
    refine (hI3 _ (by norm_num)).trans ?_
    rw [(polyoffset_spec eO2 _).1]
    linarith
  have hall := (rows.push hrow10).push hrow11
  simp only [polyint] at hall
  rw [hs] at hall
  refine ⟨_, ?_, hall⟩
  simp only [polyintF] at e1 ⊢
  simp only [ec', eo', e1, eo2', setFirst, Option.bind_eq_bind, Option.bind_some]

end StepperPaths.Rounded.Acc
