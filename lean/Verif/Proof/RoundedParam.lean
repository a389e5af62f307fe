import Verif.Proof.RoundedTable
import Verif.Proof.RoundedLine

/-! `find_param` and `eval_int` with roundings. -/

namespace StepperPaths.Rounded.Acc
open Spec SqrtPoly

variable {fl : ℝ → ℝ}

/-! ### The bisection -/

theorem mid_near (R : FloatRounding fl) {lo hi : ℝ} (h0 : 0 ≤ lo) (hlo : lo ≤ hi) (hhi : hi ≤ 11 / 100) :
    |fl (fl (hi + lo) * (1 / 2)) - (hi + lo) / 2| ≤ 1 / 2 ^ 54 := by
  have h1 := R.rel (x := hi + lo) (M := 22 / 100) (by rw [abs_of_nonneg (by linarith)]; linarith) (by norm_num)
  obtain ⟨a1, a2⟩ := abs_le.1 h1
  have h2 := R.rel (x := fl (hi + lo) * (1 / 2)) (M := 12 / 100) (by
    rw [abs_le]; constructor <;> linarith) (by norm_num)
  obtain ⟨b1, b2⟩ := abs_le.1 h2
  rw [abs_le]; constructor <;> linarith

theorem width_ge (R : FloatRounding fl) {x : ℝ} (h : fl x > 1 / 2 ^ 52) (hx : 0 ≤ x) : 99 / 100 / 2 ^ 52 ≤ x := by
  by_cases h1 : x ≤ 1 / 2 ^ 60
  · have := (abs_le.1 (R.rel (x := x) (M := 1 / 2 ^ 60) (by rw [abs_of_nonneg hx]; exact h1) (by norm_num))).2
    have : fl x ≤ 1 / 2 ^ 59 := by linarith
    have h2 : (1 : ℝ) / 2 ^ 59 ≤ 1 / 2 ^ 52 := by norm_num
    linarith
  · push Not at h1
    have := (abs_le.1 (R.rel (x := x) (M := x) (by rw [abs_of_nonneg hx]) (le_trans (by norm_num) h1.le))).2
    linarith

theorem width_le (R : FloatRounding fl) {x : ℝ} (h : ¬ fl x > 1 / 2 ^ 52) (hx : 0 ≤ x) : x ≤ 1 / 2 ^ 51 := by
  by_contra hc
  push Not at hc h
  have := (abs_le.1 (R.rel (x := x) (M := x) (by rw [abs_of_nonneg hx]) (le_trans (by norm_num) hc.le))).1
  linarith

theorem width_stop (R : FloatRounding fl) {x : ℝ} (h : x ≤ 1 / 2 ^ 53) (hx : 0 ≤ x) : ¬ fl x > 1 / 2 ^ 52 := by
  have := (abs_le.1 (R.rel (x := x) (M := 1 / 2 ^ 53) (by rw [abs_of_nonneg hx]; exact h) (by norm_num))).2
  linarith

theorem bisectF_spec (R : FloatRounding fl) {p : List ℝ} {l δ δ' W : ℝ} {G : ℝ → ℝ} (hW : W ≤ 11 / 100) (hd : δ ≤ δ')
    (hG : ∀ x, 0 ≤ x → x ≤ W → |polyvalF fl p x - G x| ≤ δ) :
    ∀ (n : ℕ) (lo hi : ℝ), 0 ≤ lo → lo ≤ hi → hi ≤ W → hi - lo ≤ (5 / 4) ^ n * (1 / 2 ^ 53) → G lo ≤ l + δ → l - δ' ≤ G hi →
      ∃ r y, bisectF fl p l lo hi = some r ∧ lo ≤ r ∧ r ≤ y ∧ y ≤ r + 1 / 2 ^ 51 ∧ y ≤ hi ∧ G r ≤ l + δ ∧ l - δ' ≤ G y
  | 0, lo, hi, h0, h1, h2, h3, h4, h5 => by
    have hs := width_stop R (x := hi - lo) (by simpa using h3) (by linarith)
    have hw := width_le R hs (by linarith)
    refine ⟨lo, hi, ?_, le_rfl, h1, by linarith, le_rfl, h4, h5⟩
    rw [bisectF, if_neg (by rw [epsilon]; exact hs)]
  | n + 1, lo, hi, h0, h1, h2, h3, h4, h5 => by
    by_cases hs : fl (hi - lo) > 1 / 2 ^ 52
    · have hw := width_ge R hs (by linarith)
      obtain ⟨m1, m2⟩ := abs_le.1 (mid_near R h0 h1 (h2.trans hW))
      have hp := pow_succ (5 / 4 : ℝ) n
      rw [hp] at h3
      have e : bisectF fl p l lo hi = if polyvalF fl p (fl (fl (hi + lo) * (1 / 2))) > l then
          bisectF fl p l lo (fl (fl (hi + lo) * (1 / 2))) else bisectF fl p l (fl (fl (hi + lo) * (1 / 2))) hi := by
        rw [bisectF, if_pos (by rw [epsilon]; exact hs)]
      rw [e]
      set mid := fl (fl (hi + lo) * (1 / 2)) with hmid
      have hlm : lo ≤ mid := by linarith
      have hmh : mid ≤ hi := by linarith
      obtain ⟨g1, g2⟩ := abs_le.1 (hG mid (h0.trans hlm) (hmh.trans h2))
      split
      · rename_i hc
        obtain ⟨r, y, q1, q2, q3, q4, q5, q6⟩ := bisectF_spec R hW hd hG n lo mid h0 hlm (hmh.trans h2) (by linarith) h4 (by linarith)
        exact ⟨r, y, q1, q2, q3, q4, q5.trans hmh, q6⟩
      · rename_i hc
        obtain ⟨r, y, q1, q2, q3, q4, q5, q6⟩ := bisectF_spec R hW hd hG n mid hi (h0.trans hlm) hmh h2 (by linarith) (by linarith) h5
        exact ⟨r, y, q1, hlm.trans q2, q3, q4, q5, q6⟩
    · have hw := width_le R hs (by linarith)
      refine ⟨lo, hi, ?_, le_rfl, h1, by linarith, le_rfl, h4, h5⟩
      rw [bisectF, if_neg (by rw [epsilon]; exact hs)]

theorem exists_rounds (w : ℝ) : ∃ n : ℕ, w ≤ (5 / 4) ^ n * (1 / 2 ^ 53) := by
  obtain ⟨n, hn⟩ := pow_unbounded_of_one_lt (w * 2 ^ 53) (by norm_num : (1 : ℝ) < 5 / 4)
  refine ⟨n, ?_⟩
  linarith

/-! ### The rows of a computed table -/

/-- The rows of a computed table of the lengths `F`: it grows with at least `V`, at most `U`, and the
values in the table are off by at most `δ`. -/
structure FloatRows (fl : ℝ → ℝ) (U V δ : ℝ) (F : ℝ → ℝ) (segs : List Segment) : Prop where
  round : FloatRounding fl
  low : 0 < V
  zero : F 0 = 0
  grows : ∀ x y, 0 ≤ x → x ≤ y → y ≤ 1 → V * (y - x) ≤ F y - F x
  fast : ∀ x y, 0 ≤ x → x ≤ y → y ≤ 1 → F y - F x ≤ U * (y - x)
  len : segs.length = 12
  start : ∀ j s, segs[j]? = some s → |s.start - node j| ≤ 11 / 2 ^ 52
  start0 : ∀ s, segs[0]? = some s → s.start = 0
  start1 : ∀ s, segs[11]? = some s → s.start = 1
  key : ∀ j s, segs[j]? = some s → ∃ v, s.int[0]? = some v ∧ |v - F (node j)| ≤ δ
  key0 : ∀ s, segs[0]? = some s → s.int[0]? = some 0
  val : ∀ j s, j < 11 → segs[j]? = some s → ∀ x, 0 ≤ x → x ≤ node (j + 1) - node j + 24 / 2 ^ 52 →
    |polyvalF fl s.int x - F (node j + min x (node (j + 1) - node j))| ≤ δ
  sorted : 40 * δ < V

variable {U V δ : ℝ} {F : ℝ → ℝ} {segs : List Segment}

theorem node_step {j : ℕ} (h : j < 11) : 1 / 20 ≤ node (j + 1) - node j ∧ node (j + 1) - node j ≤ 1 / 10 := by
  have : ∀ j : ℕ, j < 11 → node (j + 1) - node j = if j = 0 ∨ j = 10 then 1 / 20 else 1 / 10 := by
    intro j hj
    rcases Nat.eq_zero_or_pos j with rfl | h0
    · norm_num [node]
    · rcases Nat.lt_or_ge j 10 with h1 | h1
      · rw [node_mid (by omega) (by omega), node_mid (by omega) (by omega), if_neg (by omega)]
        push_cast; ring
      · obtain rfl : j = 10 := by omega
        norm_num [node]
  rw [this j h]
  split <;> norm_num

theorem node_range (j : ℕ) : 0 ≤ node j ∧ node j ≤ 1 := by
  unfold node
  split
  · norm_num
  · rename_i h0
    split
    · rename_i h1
      have a : (1 : ℝ) ≤ j := by exact_mod_cast Nat.one_le_iff_ne_zero.2 h0
      have b : (j : ℝ) ≤ 10 := by exact_mod_cast h1
      constructor <;> linarith
    · norm_num

theorem FloatRows.δ_nonneg (h : FloatRows fl U V δ F segs) : 0 ≤ δ := by
  have hl := h.len
  obtain ⟨v, -, h1⟩ := h.key 0 segs[0] (List.getElem?_eq_getElem (by omega))
  exact (abs_nonneg _).trans h1

theorem getD_of {s : Segment} {v : ℝ} (h : s.int[0]? = some v) : s.int.getD 0 0 = v := by
  rw [List.getD_eq_getElem?_getD, h]; rfl

theorem FloatRows.starts_sorted (h : FloatRows fl U V δ F segs) : (segs.map (·.start)).Pairwise (· < ·) := by
  apply pairwise_of_step
  intro i a b ha hb
  rw [List.getElem?_map] at ha hb
  obtain ⟨s, hs, rfl⟩ := Option.map_eq_some_iff.1 ha
  obtain ⟨s', hs', rfl⟩ := Option.map_eq_some_iff.1 hb
  have hi : i + 1 < segs.length := (List.getElem?_eq_some_iff.1 hs').1
  rw [h.len] at hi
  have h1 := (node_step (j := i) (by omega)).1
  obtain ⟨a1, a2⟩ := abs_le.1 (h.start _ _ hs)
  obtain ⟨b1, b2⟩ := abs_le.1 (h.start _ _ hs')
  linarith

theorem FloatRows.keys_sorted (h : FloatRows fl U V δ F segs) : (segs.map (fun s => s.int.getD 0 0)).Pairwise (· < ·) := by
  apply pairwise_of_step
  intro i a b ha hb
  rw [List.getElem?_map] at ha hb
  obtain ⟨s, hs, rfl⟩ := Option.map_eq_some_iff.1 ha
  obtain ⟨s', hs', rfl⟩ := Option.map_eq_some_iff.1 hb
  have hi : i + 1 < segs.length := (List.getElem?_eq_some_iff.1 hs').1
  rw [h.len] at hi
  have h1 := (node_step (j := i) (by omega)).1
  obtain ⟨v, e1, k1⟩ := h.key _ _ hs
  obtain ⟨v', e2, k2⟩ := h.key _ _ hs'
  rw [getD_of e1, getD_of e2]
  obtain ⟨a1, a2⟩ := abs_le.1 k1
  obtain ⟨b1, b2⟩ := abs_le.1 k2
  have h2 := h.grows _ _ (node_range i).1 (by linarith) (node_range (i + 1)).2
  have h3 := mul_le_mul_of_nonneg_left h1 h.low.le
  have h4 := h.sorted
  linarith

/-- The length from the table. -/
theorem FloatRows.length (h : FloatRows fl U V δ F segs) : ∃ len, (∀ ans, Found (segs.map (·.start)) 1 ans → evalIntF fl segs 1 ans = some len) ∧
    |len - F 1| ≤ δ ∧ ∀ s, segs[11]? = some s → s.int[0]? = some len := by
  have hl12 := h.len
  have g : segs[11]? = some segs[11] := List.getElem?_eq_getElem (by omega)
  obtain ⟨v, e1, k1⟩ := h.key _ _ g
  have e : node 11 = 1 := by simp [node]
  rw [e] at k1
  refine ⟨v, ?_, k1, fun s hs => ?_⟩
  · intro ans ha
    cases ha with
    | @ok i hi =>
      rw [List.getElem?_map] at hi
      obtain ⟨s, hs, hst⟩ := Option.map_eq_some_iff.1 hi
      have hi : i < segs.length := (List.getElem?_eq_some_iff.1 hs).1
      rw [h.len] at hi
      have : i = 11 := by
        by_contra hne
        have h1 := (node_step (j := 10) (by omega)).1
        have h2 : node i ≤ node 10 := by
          rcases Nat.eq_zero_or_pos i with rfl | h0
          · norm_num [node]
          · rw [node_mid h0 (by omega), node_mid (by norm_num) (by norm_num)]
            have : (i : ℝ) ≤ 10 := by exact_mod_cast (show i ≤ 10 by omega)
            push_cast
            linarith
        rw [e] at h1
        have h3 := (abs_le.1 (h.start _ _ hs)).2
        linarith
      subst this
      rw [g, Option.some.injEq] at hs
      subst hs
      simp only [evalIntF, g, Option.bind_eq_bind, Option.bind_some]
      exact e1
    | @err i hi hb haft =>
      exfalso
      have hk : (segs.map (·.start))[11]? = some 1 := by
        rw [List.getElem?_map, g]
        exact congrArg some (h.start1 _ g)
      rcases Nat.lt_or_ge 11 i with h1 | h1
      · exact lt_irrefl _ (hb 11 1 h1 hk)
      · exact lt_irrefl _ (haft 11 1 h1 hk)
  · rw [g, Option.some.injEq] at hs
    subst hs; exact e1

/-- The length up to a parameter. -/
theorem FloatRows.eval (h : FloatRows fl U V δ F segs) (sign : ∀ x, 0 ≤ x → 0 ≤ fl x) {t : ℝ} (h0 : 0 ≤ t) (h1 : t ≤ 1) {ans : Except ℕ ℕ}
    (ha : Found (segs.map (·.start)) t ans) : ∃ v, evalIntF fl segs t ans = some v ∧ |v - F t| ≤ δ + U / 2 ^ 46 := by
  have hδ := h.δ_nonneg
  have hUV : V ≤ U := by
    have a := h.grows 0 1 le_rfl zero_le_one le_rfl
    have b := h.fast 0 1 le_rfl zero_le_one le_rfl
    linarith
  have hU : 0 ≤ U := h.low.le.trans hUV
  have near : ∀ x, 0 ≤ x → x ≤ 1 → |x - t| ≤ 64 / 2 ^ 52 → |F x - F t| ≤ U / 2 ^ 46 := by
    intro x x0 x1 hx
    obtain ⟨a1, a2⟩ := abs_le.1 hx
    rcases le_total x t with c | c
    · have g1 := h.fast x t x0 c h1
      have g2 := h.grows x t x0 c h1
      have g3 : 0 ≤ V * (t - x) := mul_nonneg h.low.le (by linarith)
      have g4 : U * (t - x) ≤ U * (64 / 2 ^ 52) := mul_le_mul_of_nonneg_left (by linarith) hU
      rw [abs_le]
      constructor <;> linarith
    · have g1 := h.fast t x h0 c x1
      have g2 := h.grows t x h0 c x1
      have g3 : 0 ≤ V * (x - t) := mul_nonneg h.low.le (by linarith)
      have g4 : U * (x - t) ≤ U * (64 / 2 ^ 52) := mul_le_mul_of_nonneg_left (by linarith) hU
      rw [abs_le]
      constructor <;> linarith
  cases ha with
  | @ok i hi =>
    rw [List.getElem?_map] at hi
    obtain ⟨s, hs, hst⟩ := Option.map_eq_some_iff.1 hi
    obtain ⟨v, e1, k1⟩ := h.key _ _ hs
    have k2 := h.start _ _ hs
    rw [hst, abs_sub_comm] at k2
    have k3 := near (node i) (node_range i).1 (node_range i).2 (k2.trans (by norm_num))
    refine ⟨v, by simp only [evalIntF, hs, Option.bind_eq_bind, Option.bind_some, e1], ?_⟩
    have := abs_sub_le v (F (node i)) (F t)
    linarith
  | @err i hi hb haft =>
    rw [List.length_map] at hi
    have hlen12 := h.len
    have g0 : segs[0]? = some segs[0] := List.getElem?_eq_getElem (by omega)
    have g11 : segs[11]? = some segs[11] := List.getElem?_eq_getElem (by omega)
    have hi0 : i ≠ 0 := by
      rintro rfl
      have := haft 0 _ le_rfl (by rw [List.getElem?_map, g0]; rfl)
      simp only [h.start0 _ g0] at this
      linarith
    have hil : i ≤ 11 := by
      by_contra hge
      have := hb 11 _ (by omega) (by rw [List.getElem?_map, g11]; rfl)
      simp only [h.start1 _ g11] at this
      linarith
    obtain ⟨j, rfl⟩ : ∃ j, i = j + 1 := ⟨i - 1, by omega⟩
    have g1 : segs[j]? = some segs[j] := List.getElem?_eq_getElem (by omega)
    have g2 : segs[j + 1]? = some segs[j + 1] := List.getElem?_eq_getElem (by omega)
    have l1 := hb j _ (by omega) (by rw [List.getElem?_map, g1]; rfl)
    have l2 := haft (j + 1) _ le_rfl (by rw [List.getElem?_map, g2]; rfl)
    obtain ⟨w1, w2⟩ := node_step (j := j) (by omega)
    have hval := h.val j _ (by omega) g1
    obtain ⟨n0, -⟩ := node_range j
    obtain ⟨-, n1⟩ := node_range (j + 1)
    obtain ⟨a1, a2⟩ := abs_le.1 (h.start _ _ g1)
    obtain ⟨b1, b2⟩ := abs_le.1 (h.start _ _ g2)
    set s := segs[j] with hs
    set s2 := segs[j + 1] with hs2
    set w := node (j + 1) - node j with hw
    have hx0 : 0 ≤ fl (t - s.start) := sign _ (by linarith)
    have hxf := h.round.rel (x := t - s.start) (M := 1 / 2) (by rw [abs_le]; constructor <;> linarith) (by norm_num)
    obtain ⟨f1, f2⟩ := abs_le.1 hxf
    set x := fl (t - s.start) with hx
    have k1 := hval x hx0 (by linarith)
    have hm0 : 0 ≤ min x w := le_min hx0 (by linarith)
    have hm1 : min x w ≤ w := min_le_right _ _
    have hm2 : min x w ≤ x := min_le_left _ _
    have hm3 : x - 24 / 2 ^ 52 ≤ min x w := by apply le_min <;> linarith
    have k2 := near (node j + min x w) (by linarith) (by linarith) (by rw [abs_le]; constructor <;> linarith)
    refine ⟨polyvalF fl s.int x, by simp only [evalIntF, if_neg (Nat.succ_ne_zero j), Nat.add_sub_cancel, g1, Option.bind_eq_bind, Option.bind_some, ← hx], ?_⟩
    have := abs_sub_le (polyvalF fl s.int x) (F (node j + min x w)) (F t)
    linarith

/-- The parameter for a length. -/
theorem FloatRows.param (h : FloatRows fl U V δ F segs) {len l : ℝ} (hlen : ∀ s, segs[11]? = some s → s.int[0]? = some len)
    (h0 : 0 < l) (h1 : l < len) {ans : Except ℕ ℕ} (ha : Found (segs.map (fun s => s.int.getD 0 0)) l ans) :
    ∃ t' t, findParamF fl segs l ans = some t' ∧ 0 ≤ t ∧ t ≤ 1 ∧ |t' - t| ≤ 64 / 2 ^ 52 ∧ |F t - l| ≤ δ + U / 2 ^ 46 := by
  have hδ := h.δ_nonneg
  have hUV : V ≤ U := by
    have a := h.grows 0 1 le_rfl zero_le_one le_rfl
    have b := h.fast 0 1 le_rfl zero_le_one le_rfl
    linarith
  have hU : 0 ≤ U := h.low.le.trans hUV
  cases ha with
  | @ok i hi =>
    rw [List.getElem?_map] at hi
    obtain ⟨s, hs, hst⟩ := Option.map_eq_some_iff.1 hi
    obtain ⟨v, e1, k1⟩ := h.key _ _ hs
    rw [getD_of e1] at hst
    refine ⟨s.start, node i, by simp only [findParamF, hs, Option.bind_eq_bind, Option.bind_some], (node_range i).1, (node_range i).2,
      (h.start _ _ hs).trans (by norm_num), ?_⟩
    rw [hst, abs_sub_comm] at k1
    have : 0 ≤ U / 2 ^ 46 := by positivity
    linarith
  | @err i hi hb haft =>
    rw [List.length_map] at hi
    have hlen12 := h.len
    have g0 : segs[0]? = some segs[0] := List.getElem?_eq_getElem (by omega)
    have g11 : segs[11]? = some segs[11] := List.getElem?_eq_getElem (by omega)
    have hi0 : i ≠ 0 := by
      rintro rfl
      have := haft 0 _ le_rfl (by rw [List.getElem?_map, g0]; rfl)
      simp only [getD_of (h.key0 _ g0)] at this
      linarith
    have hil : i ≤ 11 := by
      by_contra hge
      have := hb 11 _ (by omega) (by rw [List.getElem?_map, g11]; rfl)
      simp only [getD_of (hlen _ g11)] at this
      linarith
    obtain ⟨j, rfl⟩ : ∃ j, i = j + 1 := ⟨i - 1, by omega⟩
    have g1 : segs[j]? = some segs[j] := List.getElem?_eq_getElem (by omega)
    have g2 : segs[j + 1]? = some segs[j + 1] := List.getElem?_eq_getElem (by omega)
    obtain ⟨v, e1, k1⟩ := h.key _ _ g1
    obtain ⟨v', e2, k2⟩ := h.key _ _ g2
    have l1 := hb j _ (by omega) (by rw [List.getElem?_map, g1]; rfl)
    have l2 := haft (j + 1) _ le_rfl (by rw [List.getElem?_map, g2]; rfl)
    simp only [getD_of e1] at l1
    simp only [getD_of e2] at l2
    obtain ⟨w1, w2⟩ := node_step (j := j) (by omega)
    have hval := h.val j _ (by omega) g1
    obtain ⟨n0, -⟩ := node_range j
    obtain ⟨-, n1⟩ := node_range (j + 1)
    obtain ⟨a1, a2⟩ := abs_le.1 (h.start _ _ g1)
    obtain ⟨b1, b2⟩ := abs_le.1 (h.start _ _ g2)
    obtain ⟨c1, c2⟩ := abs_le.1 k1
    obtain ⟨d1, d2⟩ := abs_le.1 k2
    set s := segs[j] with hs
    set s2 := segs[j + 1] with hs2
    set w := node (j + 1) - node j with hw
    have hwf := h.round.rel (x := s2.start - s.start) (M := 1 / 2) (by rw [abs_le]; constructor <;> linarith) (by norm_num)
    obtain ⟨f1, f2⟩ := abs_le.1 hwf
    set w' := fl (s2.start - s.start) with hw'
    have hw0 : 0 ≤ w' := by linarith
    obtain ⟨n, hn⟩ := exists_rounds (w' - 0)
    have hj : node (j + 1) = node j + w := by rw [hw]; ring
    have hG1 : l - (δ + 24 * U / 2 ^ 52) ≤ F (node j + min w' w) := by
      rcases le_total w w' with hc | hc
      · rw [min_eq_right hc, ← hj]
        have : 0 ≤ 24 * U / 2 ^ 52 := by positivity
        linarith
      · rw [min_eq_left hc]
        have h3 := h.fast (node j + w') (node (j + 1)) (by linarith) (by linarith) n1
        have h4 : U * (node (j + 1) - (node j + w')) ≤ U * (24 / 2 ^ 52) := mul_le_mul_of_nonneg_left (by linarith) hU
        linarith
    obtain ⟨r, y, q1, q2, q3, q4, q5, q6, q7⟩ := bisectF_spec h.round (p := s.int) (l := l) (δ := δ) (δ' := δ + 24 * U / 2 ^ 52)
      (W := w + 24 / 2 ^ 52) (G := fun x => F (node j + min x w)) (by norm_num; linarith)
      (by have : 0 ≤ 24 * U / 2 ^ 52 := by positivity
          linarith) hval n 0 w' le_rfl hw0 (by linarith) hn (by
        simp only [min_eq_left (show (0 : ℝ) ≤ w by linarith), add_zero]
        linarith) hG1
    have hr0 : 0 ≤ min r w := le_min q2 (by linarith)
    have hrw : min r w ≤ w := min_le_right _ _
    have hra : r - 24 / 2 ^ 52 ≤ min r w := by
      apply le_min <;> linarith
    have hrb : min r w ≤ r := min_le_left _ _
    have hf := h.round.rel (x := r + s.start) (M := 2) (by rw [abs_le]; constructor <;> linarith) (by norm_num)
    obtain ⟨p1, p2⟩ := abs_le.1 hf
    refine ⟨fl (r + s.start), node j + min r w, ?_, by linarith, by linarith, ?_, ?_⟩
    · have c1 : ¬ (j + 1 ≥ segs.length ∨ j + 1 = 0) := by omega
      simp only [findParamF, if_neg c1, Nat.add_sub_cancel, g1, g2, Option.bind_eq_bind, Option.bind_some]
      rw [q1]
      rfl
    · rw [abs_le]; constructor <;> linarith
    · have hyw : min y w ≤ w := min_le_right _ _
      have hmm : min r w ≤ min y w := min_le_min_right _ q3
      have h3 := h.fast (node j + min r w) (node j + min y w) (by linarith) (by linarith) (by linarith)
      have h4 : min y w - min r w ≤ 1 / 2 ^ 51 := by
        rcases le_total r w with hc | hc
        · rw [min_eq_left hc]
          have : min y w ≤ y := min_le_left _ _
          linarith
        · rw [min_eq_right hc]
          have : (0 : ℝ) < 1 / 2 ^ 51 := by norm_num
          linarith
      have h5 : U * (node j + min y w - (node j + min r w)) ≤ U * (1 / 2 ^ 51) := mul_le_mul_of_nonneg_left (by linarith) hU
      have : 24 * U / 2 ^ 52 + U * (1 / 2 ^ 51) ≤ U / 2 ^ 46 := by
        linarith
      rw [abs_le]
      constructor <;> linarith

end StepperPaths.Rounded.Acc
