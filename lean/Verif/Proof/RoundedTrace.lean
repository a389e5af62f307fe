import Verif.Proof.RoundedLines

/-! Which points are reached while lines are played. -/

namespace StepperPaths.Rounded
open Coords Curves Context IntegerCurve Spec Props Draw

theorem along_line (l : List (Vec × Vec)) {i : ℕ} (hi : i < l.length) {s : ℝ} (h0 : lenTo l i < s)
    (h1 : s ≤ lenTo l (i + 1)) : alongAt l s = lineAt l[i] (s - lenTo l i) := by
  induction l generalizing i s with
  | nil => simp at hi
  | cons x l ih =>
    cases l with
    | nil =>
      have : i = 0 := by simpa using hi
      subst this
      rw [lenTo_zero, sub_zero]
      rfl
    | cons y l =>
      cases i with
      | zero =>
        rw [lenTo_cons, lenTo_zero, add_zero] at h1
        rw [lenTo_zero, sub_zero]
        simp only [alongAt]
        rw [if_pos (show s ≤ (x.2 - x.1).length from h1)]
        rfl
      | succ i =>
        rw [lenTo_cons] at h0 h1
        have h2 := lenTo_nonneg (y :: l) (j := i) (by simp at hi ⊢; omega)
        have hs : ¬ s ≤ (x.2 - x.1).length := by
          rw [not_le]
          unfold segLen at h0
          linarith
        simp only [alongAt, if_neg hs]
        rw [lenTo_cons]
        have := ih (i := i) (s := s - segLen x) (by simpa using hi) (by linarith) (by linarith)
        simp only [List.getElem_cons_succ]
        rw [show s - (segLen x + lenTo (y :: l) i) = s - segLen x - lenTo (y :: l) i by ring]
        exact this

theorem lineAt_near (x : Vec × Vec) (s s' : ℝ) (a : Axis) : |coord (lineAt x s) a - coord (lineAt x s') a| ≤ |s - s'| := by
  rw [lineAt_coord, lineAt_coord, show coord x.1 a + dirOf x a * s - (coord x.1 a + dirOf x a * s') =
    dirOf x a * (s - s') by ring, abs_mul]
  exact mul_le_of_le_one_left (abs_nonneg _) (dir_le a)

theorem run_only {e : Env} {v S r : ℝ} {w : ℤ} {aMax vMax : Axis → ℤ} {es : List Event} {t a b : ℕ}
    {l : List (Vec × Vec)} (h : FloatRun e v S r w aMax vMax es t a b l) (hw : w ≠ 0) :
    FloatOnly e w es t b l (fun i => 386 / 100 * S + r * e.stepScale i) := by
  intro w0 τ h1 h2 h3
  have hab := h.some
  have h4 : a ≤ τ := by
    by_contra hc
    rw [h.off w0 τ h1 (by omega)] at h3
    exact hw h3.symm
  have hf := fun i => h.follows i (τ - a) (by omega)
  rw [show a + (τ - a) = τ by omega] at hf
  have hΛ : 0 ≤ linesLen l := by rw [linesLen_eq]; exact lenTo_nonneg l le_rfl
  have hn : (0 : ℝ) < (b : ℝ) - a := by
    have : (a : ℝ) < b := by exact_mod_cast hab
    linarith
  have fr0 : (0 : ℝ) ≤ ((τ - a : ℕ) : ℝ) / ((b : ℝ) - a) := by positivity
  have fr1 : ((τ - a : ℕ) : ℝ) / ((b : ℝ) - a) ≤ 1 := by
    rw [div_le_one hn, Nat.cast_sub h4]
    have : (τ : ℝ) < b := by exact_mod_cast h2
    linarith
  obtain ⟨i, hi, p1, p2, p3⟩ := along_spec l h.ne (mul_nonneg hΛ fr0) (mul_le_of_le_one_right hΛ fr1)
  refine ⟨l[i], List.getElem_mem hi, linesLen l * (((τ - a : ℕ) : ℝ) / ((b : ℝ) - a)) - lenTo l i, by linarith, ?_, ?_⟩
  · rw [lenTo_succ l i hi] at p2
    show _ ≤ segLen l[i]
    linarith
  · intro ax
    have := hf ax
    rw [p3 ax] at this
    rw [lineAt_coord]
    exact this

theorem run_all {e : Env} {v S r : ℝ} {w : ℤ} {aMax vMax : Axis → ℤ} {es : List Event} {t a b : ℕ}
    {l : List (Vec × Vec)} (h : FloatRun e v S r w aMax vMax es t a b l) (hv : 0 < v) (hg : ∀ i, 0 ≤ e.stepScale i) :
    FloatAll e w es t b l (fun i => 386 / 100 * S + (r + 13 / 10 * v) * e.stepScale i) := by
  intro x hx s hs0 hs1
  obtain ⟨i, hi, rfl⟩ := List.getElem_of_mem hx
  have hab := h.some
  have hmv := h.move
  have hlen := h.len
  have hfo := h.follows
  set Λ := linesLen l with hΛ
  set n := b - a with hn
  have ecast : (b : ℝ) - a = n := by rw [hn, Nat.cast_sub hab.le]
  rw [ecast] at hlen hfo
  have hseg := h.long _ (List.getElem_mem hi)
  have hL1 := lenTo_succ l i hi
  have hL2 : lenTo l (i + 1) ≤ Λ := by rw [hΛ, linesLen_eq]; exact lenTo_mono l hi le_rfl
  have hL0 := lenTo_nonneg l hi.le
  have hseg' : 2 * v ≤ segLen l[i] := hseg
  obtain ⟨n1, n2⟩ := abs_le.1 hlen
  have hq : 2 ≤ Λ / v := by rw [le_div_iff₀ hv]; linarith
  have hn1 : (1 : ℝ) < n := by linarith
  have hn2 : 2 ≤ n := by
    have : 1 < n := by exact_mod_cast hn1
    omega
  have hn2' : (2 : ℝ) ≤ n := by exact_mod_cast hn2
  have hn0 : (0 : ℝ) < n := by linarith
  -- the length of a tick
  set p := Λ / n with hp
  have hp0 : 0 < p := by
    rw [hp]
    apply div_pos _ hn0
    linarith
  have hpv : p ≤ 13 / 10 * v := by
    rw [hp, div_le_iff₀ hn0]
    have h1 : Λ / v ≤ 13 / 10 * n := by linarith
    rw [div_le_iff₀ hv] at h1
    linarith
  have hpn : p * n = Λ := by rw [hp]; field_simp
  have hs1' : s ≤ segLen l[i] := hs1
  obtain ⟨k, k1, k2, k3⟩ : ∃ k : ℕ, lenTo l i < k * p ∧ k * p ≤ lenTo l (i + 1) ∧ |k * p - (lenTo l i + s)| ≤ p := by
    have f1 := Nat.floor_le (a := (lenTo l i + s) / p) (by positivity)
    have f2 := Nat.lt_floor_add_one ((lenTo l i + s) / p)
    rw [le_div_iff₀ hp0] at f1
    rw [div_lt_iff₀ hp0] at f2
    set k1 := ⌊(lenTo l i + s) / p⌋₊
    by_cases hk : lenTo l i < k1 * p
    · refine ⟨k1, hk, by linarith, ?_⟩
      rw [abs_le]; constructor <;> linarith
    · rw [not_lt] at hk
      refine ⟨k1 + 1, ?_, ?_, ?_⟩ <;> push_cast
      · linarith
      · linarith
      · rw [abs_le]; constructor <;> linarith
  have hkn : k ≤ n := by
    have : (k : ℝ) * p ≤ n * p := by linarith
    have := le_of_mul_le_mul_right this hp0
    exact_mod_cast this
  have hk0 : 1 ≤ k := by
    by_contra hc
    have : k = 0 := by omega
    subst this
    simp at k1
    linarith
  have ekp : Λ * ((k : ℝ) / n) = k * p := by rw [hp]; ring
  refine ⟨a + (k - 1), by omega, by omega, fun w0 => h.on w0 _ (by omega) (by omega), a + k, by omega, fun ax => ?_⟩
  have h1 := hfo ax k hkn
  rw [ekp, along_line l hi k1 k2] at h1
  have h2 := lineAt_near l[i] (k * p - lenTo l i) s ax
  rw [show k * p - lenTo l i - s = k * p - (lenTo l i + s) by ring] at h2
  have h3 : |coord (lineAt l[i] (k * p - lenTo l i)) ax * e.stepScale ax - coord (lineAt l[i] s) ax * e.stepScale ax| ≤
      13 / 10 * v * e.stepScale ax := by
    rw [← sub_mul, abs_mul, abs_of_nonneg (hg ax)]
    exact mul_le_mul_of_nonneg_right (by linarith) (hg ax)
  obtain ⟨x1, x2⟩ := abs_le.1 h1
  obtain ⟨y1, y2⟩ := abs_le.1 h3
  show _ ≤ 386 / 100 * S + (r + 13 / 10 * v) * e.stepScale ax
  rw [abs_le, add_mul]; constructor <;> linarith

theorem runs_le {e : Env} {v S r : ℝ} {w : ℤ} {aMax vMax : Axis → ℤ} {es : List Event} {t T : ℕ}
    {G : List (List (Vec × Vec))} (h : FloatRuns e v S r w aMax vMax es t G T) : t ≤ T := by
  induction h with
  | nil t => exact le_rfl
  | cons h1 _ ih =>
    have := h1.move
    have := h1.some
    omega

theorem runs_only {e : Env} {v S r : ℝ} {w : ℤ} {aMax vMax : Axis → ℤ} {es : List Event} {t T : ℕ}
    {G : List (List (Vec × Vec))} (h : FloatRuns e v S r w aMax vMax es t G T) (hw : w ≠ 0) :
    FloatOnly e w es t T G.flatten (fun i => 386 / 100 * S + r * e.stepScale i) := by
  induction h with
  | nil t =>
    intro w0 τ h1 h2
    omega
  | @cons t a b T l ls h1 _ ih =>
    intro w0 τ q1 q2 q3
    rw [List.flatten_cons]
    by_cases hb : τ < b
    · obtain ⟨x, hx, y⟩ := run_only h1 hw w0 τ q1 hb q3
      exact ⟨x, List.mem_append_left _ hx, y⟩
    · obtain ⟨x, hx, y⟩ := ih w0 τ (by omega) q2 q3
      exact ⟨x, List.mem_append_right _ hx, y⟩

theorem runs_all {e : Env} {v S r : ℝ} {w : ℤ} {aMax vMax : Axis → ℤ} {es : List Event} {t T : ℕ}
    {G : List (List (Vec × Vec))} (h : FloatRuns e v S r w aMax vMax es t G T) (hv : 0 < v)
    (hg : ∀ i, 0 ≤ e.stepScale i) :
    FloatAll e w es t T G.flatten (fun i => 386 / 100 * S + (r + 13 / 10 * v) * e.stepScale i) := by
  induction h with
  | nil t =>
    intro x hx
    simp at hx
  | @cons t a b T l ls h1 h2 ih =>
    intro x hx s q1 q2
    have hle := runs_le h2
    have := h1.move
    have := h1.some
    rw [List.flatten_cons] at hx
    rcases List.mem_append.1 hx with hx | hx
    · obtain ⟨τ, c1, c2, c3⟩ := run_all h1 hv hg x hx s q1 q2
      exact ⟨τ, c1, by omega, c3⟩
    · obtain ⟨τ, c1, c2, c3⟩ := ih x hx s q1 q2
      exact ⟨τ, by omega, c2, c3⟩

end StepperPaths.Rounded
