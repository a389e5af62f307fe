import Verif.Proof.CurveLines

/-! Which points are reached while lines and curves are played. -/

namespace StepperPaths.Rounded.CurvePath
open Coords Curves Context IntegerCurve Spec Props Draw

/-- Without what is computed. -/
noncomputable def bare (x : Vec × Shape) : Piece := ⟨x.1, x.2, ⟨0, fun _ => (⟨0, 0⟩, ⟨0, 0⟩)⟩⟩

theorem bare_placed (l : List (Vec × Shape)) : (l.map bare).map Piece.placed = l := by
  rw [List.map_map]
  exact List.map_id l

theorem path_piece (l : List Piece) (h : ∀ x ∈ l, 0 ≤ x.shape.len) {i : ℕ} (hi : i < l.length) {s : ℝ} (h0 : lenTo l i < s)
    (h1 : s ≤ lenTo l (i + 1)) : pathAt (l.map Piece.placed) s = placedAt l[i].placed (s - lenTo l i) := by
  induction l generalizing i s with
  | nil => simp at hi
  | cons x l ih =>
    cases l with
    | nil =>
      have : i = 0 := by simpa using hi
      subst this
      rw [lenTo_zero, sub_zero]
      rfl
    | cons y l =>
      cases i with
      | zero =>
        rw [lenTo_cons, lenTo_zero, add_zero] at h1
        rw [lenTo_zero, sub_zero]
        simp only [List.map_cons, pathAt]
        exact if_pos h1
      | succ i =>
        rw [lenTo_cons] at h0 h1
        have h2 : 0 ≤ lenTo (y :: l) i := by
          unfold lenTo
          apply List.sum_nonneg
          intro z hz
          obtain ⟨w, hw, rfl⟩ := List.mem_map.1 hz
          exact h w (List.mem_cons_of_mem _ (List.mem_of_mem_take hw))
        have hs : ¬ s ≤ x.shape.len := by
          rw [not_le]
          linarith
        have e1 : pathAt (List.map Piece.placed (x :: y :: l)) s = pathAt (List.map Piece.placed (y :: l)) (s - x.shape.len) := by
          simp only [List.map_cons, pathAt]
          exact if_neg hs
        rw [e1, lenTo_cons]
        have := ih (fun z hz => h z (List.mem_cons_of_mem _ hz)) (i := i) (s := s - x.shape.len) (by simpa using hi) (by linarith) (by linarith)
        simp only [List.getElem_cons_succ]
        rw [show s - (x.shape.len + lenTo (y :: l) i) = s - x.shape.len - lenTo (y :: l) i by ring]
        exact this

theorem lens_mono {l : List Piece} (h : ∀ x ∈ l, 0 ≤ x.shape.len) {j k : ℕ} (hjk : j ≤ k) (hk : k ≤ l.length) :
    lenTo l j ≤ lenTo l k := by
  induction k, hjk using Nat.le_induction with
  | base => exact le_rfl
  | succ k _ ih =>
    rw [lenTo_succ l k (by omega)]
    have := ih (by omega)
    have := h _ (List.getElem_mem (show k < l.length by omega))
    linarith

theorem run_only {e : Env} {v S r : ℝ} {w : ℤ} {aMax vMax : Axis → ℤ} {es : List Event} {t a b : ℕ}
    {l : List (Vec × Shape)} (h : CurveRun e v S r w aMax vMax es t a b l) (hv : 0 < v) (hw : w ≠ 0) :
    CurveOnly e w es t b l (fun i => 386 / 100 * S + r * e.stepScale i) := by
  intro w0 τ h1 h2 h3
  have hab := h.some
  have h4 : a ≤ τ := by
    by_contra hc
    rw [h.off w0 τ h1 (by omega)] at h3
    exact hw h3.symm
  have hf := fun i => h.follows i (τ - a) (by omega)
  rw [show a + (τ - a) = τ by omega] at hf
  have hlens : ∀ x ∈ l.map bare, 0 ≤ x.shape.len := by
    intro x hx
    obtain ⟨y, hy, rfl⟩ := List.mem_map.1 hx
    have := h.long y hy
    show 0 ≤ y.2.len
    linarith
  have hΛ : 0 ≤ pathLen l := by
    rw [← bare_placed l, pathLen_eq, ← lenTo_zero (l.map bare)]
    exact lens_mono hlens (Nat.zero_le _) le_rfl
  have hn : (0 : ℝ) < (b : ℝ) - a := by
    have : (a : ℝ) < b := by exact_mod_cast hab
    linarith
  have fr0 : (0 : ℝ) ≤ ((τ - a : ℕ) : ℝ) / ((b : ℝ) - a) := by positivity
  have fr1 : ((τ - a : ℕ) : ℝ) / ((b : ℝ) - a) ≤ 1 := by
    rw [div_le_one hn, Nat.cast_sub h4]
    have : (τ : ℝ) < b := by exact_mod_cast h2
    linarith
  obtain ⟨i, hi, p1, p2, p3⟩ := path_spec (l.map bare) (by simpa using h.ne) (mul_nonneg hΛ fr0)
    (by rw [bare_placed]; exact mul_le_of_le_one_right hΛ fr1)
  rw [bare_placed] at p3
  have hi' : i < l.length := by simpa using hi
  have eg : (l.map bare)[i] = bare l[i] := by simp
  refine ⟨l[i], List.getElem_mem hi', pathLen l * (((τ - a : ℕ) : ℝ) / ((b : ℝ) - a)) - lenTo (l.map bare) i, by linarith, ?_, ?_⟩
  · rw [lenTo_succ _ i hi, eg] at p2
    have p2 : _ ≤ lenTo (l.map bare) i + l[i].2.len := p2
    linarith
  · intro ax
    have := hf ax
    rw [p3 ax, eg] at this
    have e2 : ∀ s, coord (placedAt l[i] s) ax = coord l[i].1 ax + coord (l[i].2.pt s) ax := fun s => placed_coord (bare l[i]) s ax
    rw [e2]
    exact this

theorem run_all {e : Env} {v S r : ℝ} {w : ℤ} {aMax vMax : Axis → ℤ} {es : List Event} {t a b : ℕ}
    {l : List (Vec × Shape)} (h : CurveRun e v S r w aMax vMax es t a b l) (hv : 0 < v) (hg : ∀ i, 0 ≤ e.stepScale i) :
    CurveAll e w es t b l (fun i => 386 / 100 * S + (r + 13 / 10 * v) * e.stepScale i) := by
  intro x hx s hs0 hs1
  obtain ⟨i, hi, rfl⟩ := List.getElem_of_mem hx
  have hab := h.some
  have hmv := h.move
  have hlen := h.len
  have hfo := h.follows
  set Λ := pathLen l with hΛ
  set n := b - a with hn
  have ecast : (b : ℝ) - a = n := by rw [hn, Nat.cast_sub hab.le]
  rw [ecast] at hlen hfo
  have hseg := h.long _ (List.getElem_mem hi)
  have hlens : ∀ x ∈ l.map bare, 0 ≤ x.shape.len := by
    intro x hx
    obtain ⟨y, hy, rfl⟩ := List.mem_map.1 hx
    have := h.long y hy
    show 0 ≤ y.2.len
    linarith
  have hi' : i < (l.map bare).length := by simpa using hi
  have eg : (l.map bare)[i] = bare l[i] := by simp
  have hL1 : lenTo (l.map bare) (i + 1) = lenTo (l.map bare) i + l[i].2.len := by
    rw [lenTo_succ _ i hi', eg]
    rfl
  have hL2 : lenTo (l.map bare) (i + 1) ≤ Λ := by
    rw [hΛ, ← bare_placed l, pathLen_eq, bare_placed]
    exact lens_mono hlens hi' le_rfl
  have hL0 : 0 ≤ lenTo (l.map bare) i := by
    rw [← lenTo_zero (l.map bare)]
    exact lens_mono hlens (Nat.zero_le _) hi'.le
  obtain ⟨n1, n2⟩ := abs_le.1 hlen
  have hq : 2 ≤ Λ / v := by rw [le_div_iff₀ hv]; linarith
  have hn1 : (1 : ℝ) < n := by linarith
  have hn2 : 2 ≤ n := by
    have : 1 < n := by exact_mod_cast hn1
    omega
  have hn2' : (2 : ℝ) ≤ n := by exact_mod_cast hn2
  have hn0 : (0 : ℝ) < n := by linarith
  -- the length of a tick
  set p := Λ / n with hp
  have hp0 : 0 < p := by
    rw [hp]
    apply div_pos _ hn0
    linarith
  have hpv : p ≤ 13 / 10 * v := by
    rw [hp, div_le_iff₀ hn0]
    have h1 : Λ / v ≤ 13 / 10 * n := by linarith
    rw [div_le_iff₀ hv] at h1
    linarith
  have hpn : p * n = Λ := by rw [hp]; field_simp
  obtain ⟨k, k1, k2, k3⟩ : ∃ k : ℕ, lenTo (l.map bare) i < k * p ∧ k * p ≤ lenTo (l.map bare) (i + 1) ∧ |k * p - (lenTo (l.map bare) i + s)| ≤ p := by
    have f1 := Nat.floor_le (a := (lenTo (l.map bare) i + s) / p) (by positivity)
    have f2 := Nat.lt_floor_add_one ((lenTo (l.map bare) i + s) / p)
    rw [le_div_iff₀ hp0] at f1
    rw [div_lt_iff₀ hp0] at f2
    set k1 := ⌊(lenTo (l.map bare) i + s) / p⌋₊
    by_cases hk : lenTo (l.map bare) i < k1 * p
    · refine ⟨k1, hk, by linarith, ?_⟩
      rw [abs_le]; constructor <;> linarith
    · rw [not_lt] at hk
      refine ⟨k1 + 1, ?_, ?_, ?_⟩ <;> push_cast
      · linarith
      · linarith
      · rw [abs_le]; constructor <;> linarith
  have hkn : k ≤ n := by
    have : (k : ℝ) * p ≤ n * p := by linarith
    have := le_of_mul_le_mul_right this hp0
    exact_mod_cast this
  have hk0 : 1 ≤ k := by
    by_contra hc
    have : k = 0 := by omega
    subst this
    simp at k1
    linarith
  have ekp : Λ * ((k : ℝ) / n) = k * p := by rw [hp]; ring
  refine ⟨a + (k - 1), by omega, by omega, fun w0 => h.on w0 _ (by omega) (by omega), a + k, by omega, fun ax => ?_⟩
  have h1 := hfo ax k hkn
  have hpa := path_piece (l.map bare) hlens hi' k1 k2
  rw [bare_placed, eg] at hpa
  have hpa : pathAt l (k * p) = placedAt l[i] (k * p - lenTo (l.map bare) i) := hpa
  rw [ekp, hpa] at h1
  have h2 : |coord (placedAt l[i] (k * p - lenTo (l.map bare) i)) ax - coord (placedAt l[i] s) ax| ≤
      |k * p - lenTo (l.map bare) i - s| := by
    obtain ⟨κ, hκ⟩ := h.smooth _ (List.getElem_mem hi)
    have e2 : ∀ s, coord (placedAt l[i] s) ax = coord l[i].1 ax + coord (l[i].2.pt s) ax := fun s => placed_coord (bare l[i]) s ax
    rw [e2, e2, add_sub_add_left_eq_sub]
    exact hκ.lip ax _ _
  rw [show k * p - lenTo (l.map bare) i - s = k * p - (lenTo (l.map bare) i + s) by ring] at h2
  have h3 : |coord (placedAt l[i] (k * p - lenTo (l.map bare) i)) ax * e.stepScale ax - coord (placedAt l[i] s) ax * e.stepScale ax| ≤
      13 / 10 * v * e.stepScale ax := by
    rw [← sub_mul, abs_mul, abs_of_nonneg (hg ax)]
    exact mul_le_mul_of_nonneg_right (by linarith) (hg ax)
  obtain ⟨x1, x2⟩ := abs_le.1 h1
  obtain ⟨y1, y2⟩ := abs_le.1 h3
  show _ ≤ 386 / 100 * S + (r + 13 / 10 * v) * e.stepScale ax
  rw [abs_le, add_mul]; constructor <;> linarith

theorem runs_le {e : Env} {v S r : ℝ} {w : ℤ} {aMax vMax : Axis → ℤ} {es : List Event} {t T : ℕ}
    {G : List (List (Vec × Shape))} (h : CurveRuns e v S r w aMax vMax es t G T) : t ≤ T := by
  induction h with
  | nil t => exact le_rfl
  | cons h1 _ ih =>
    have := h1.move
    have := h1.some
    omega

theorem runs_only {e : Env} {v S r : ℝ} {w : ℤ} {aMax vMax : Axis → ℤ} {es : List Event} {t T : ℕ}
    {G : List (List (Vec × Shape))} (h : CurveRuns e v S r w aMax vMax es t G T) (hv : 0 < v) (hw : w ≠ 0) :
    CurveOnly e w es t T G.flatten (fun i => 386 / 100 * S + r * e.stepScale i) := by
  induction h with
  | nil t =>
    intro w0 τ h1 h2
    omega
  | @cons t a b T l ls h1 _ ih =>
    intro w0 τ q1 q2 q3
    rw [List.flatten_cons]
    by_cases hb : τ < b
    · obtain ⟨x, hx, y⟩ := run_only h1 hv hw w0 τ q1 hb q3
      exact ⟨x, List.mem_append_left _ hx, y⟩
    · obtain ⟨x, hx, y⟩ := ih w0 τ (by omega) q2 q3
      exact ⟨x, List.mem_append_right _ hx, y⟩

theorem runs_all {e : Env} {v S r : ℝ} {w : ℤ} {aMax vMax : Axis → ℤ} {es : List Event} {t T : ℕ}
    {G : List (List (Vec × Shape))} (h : CurveRuns e v S r w aMax vMax es t G T) (hv : 0 < v)
    (hg : ∀ i, 0 ≤ e.stepScale i) :
    CurveAll e w es t T G.flatten (fun i => 386 / 100 * S + (r + 13 / 10 * v) * e.stepScale i) := by
  induction h with
  | nil t =>
    intro x hx
    simp at hx
  | @cons t a b T l ls h1 h2 ih =>
    intro x hx s q1 q2
    have hle := runs_le h2
    have := h1.move
    have := h1.some
    rw [List.flatten_cons] at hx
    rcases List.mem_append.1 hx with hx | hx
    · obtain ⟨τ, c1, c2, c3⟩ := run_all h1 hv hg x hx s q1 q2
      exact ⟨τ, c1, by omega, c3⟩
    · obtain ⟨τ, c1, c2, c3⟩ := ih x hx s q1 q2
      exact ⟨τ, by omega, c2, c3⟩

end StepperPaths.Rounded.CurvePath
