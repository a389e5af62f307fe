import Verif.Proof.Taylor
import Mathlib.Analysis.Calculus.Taylor
import Mathlib.Analysis.Calculus.MeanValue
import Mathlib.MeasureTheory.Integral.IntervalIntegral.FundThmCalculus

/-! Proofs about `build_segments`, `eval_int` and `find_param`, `Verif.Model.SqrtPoly`. -/

namespace StepperPaths.SqrtPoly
open Set

theorem polyval_sum (p : List ℝ) (t : ℝ) :
    polyval p t = ∑ i ∈ Finset.range p.length, p.getD i 0 * t ^ i := by
  induction p with
  | nil => simp [polyval]
  | cons c p ih =>
    have h1 : polyval (c :: p) t = polyval p t * t + c := rfl
    rw [h1, ih, List.length_cons, Finset.sum_range_succ', Finset.sum_mul]
    simp only [List.getD_cons_succ, List.getD_cons_zero, pow_zero, mul_one, pow_succ]
    congr 1
    exact Finset.sum_congr rfl fun i _ => by ring

theorem polyint_hasDerivAt (p : List ℝ) (t : ℝ) :
    HasDerivAt (polyval (polyint p)) (polyval p t) t := by
  have := (toPoly (polyint p)).hasDerivAt t
  rw [polyint_derivative, toPoly_eval] at this
  have e : (fun x => (toPoly (polyint p)).eval x) = polyval (polyint p) :=
    funext (toPoly_eval (polyint p))
  rwa [e] at this

/-- The speed on the curve. -/
noncomputable def speed (p : List ℝ) (t : ℝ) : ℝ := Real.sqrt (polyval p t)

theorem speed_continuous (p : List ℝ) : Continuous (speed p) :=
  Real.continuous_sqrt.comp (polyval_continuous p)

theorem polyval_contDiff (p : List ℝ) {n : WithTop ℕ∞} : ContDiff ℝ n (polyval p) := by
  induction p with
  | nil => exact contDiff_const
  | cons c p ih => exact (ih.mul contDiff_id).add contDiff_const

theorem speed_contDiffAt {p : List ℝ} {t : ℝ} (h : 0 < polyval p t) {n : WithTop ℕ∞} :
    ContDiffAt ℝ n (speed p) t :=
  (polyval_contDiff p).contDiffAt.sqrt h.ne'

theorem taylor_error {p r : List ℝ} {m x M : ℝ} (hr : taylorSequence p m 7 = some r)
    (hp : ∀ y ∈ uIcc m x, 0 < polyval p y)
    (hM : ∀ y ∈ uIcc m x, |iteratedDeriv 7 (speed p) y| ≤ M) :
    |polyval r (x - m) - speed p x| ≤ M * |x - m| ^ 7 / 5040 := by
  obtain ⟨hlen, hco⟩ := taylorSequence_spec hr (hp m left_mem_uIcc)
  have hM0 : 0 ≤ M := (abs_nonneg _).trans (hM m left_mem_uIcc)
  have hlen7 : r.length = 7 := by rw [hlen]; rfl
  have hval : polyval r (x - m) = ∑ k ∈ Finset.range 7,
      iteratedDeriv k (speed p) m / (k.factorial : ℝ) * (x - m) ^ k := by
    rw [polyval_sum, hlen7]
    refine Finset.sum_congr rfl fun k hk => ?_
    rw [hco k (by rw [Finset.mem_range] at hk; omega)]
    rfl
  rcases eq_or_ne m x with rfl | hne
  · rw [hval, Finset.sum_eq_single 0]
    · simp
    · intro k _ hk
      rw [sub_self, zero_pow hk, mul_zero]
    · simp
  · have hcd : ContDiffOn ℝ ((6 : ℕ) + 1) (speed p) (uIcc m x) :=
      fun y hy => (speed_contDiffAt (hp y hy)).contDiffWithinAt
    obtain ⟨x', hx', hx2⟩ := taylor_mean_remainder_lagrange_iteratedDeriv hne hcd
    have hT : taylorWithinEval (speed p) 6 (uIcc m x) m x = polyval r (x - m) := by
      rw [taylor_within_apply, hval]
      refine Finset.sum_congr rfl fun k _ => ?_
      rw [iteratedDerivWithin_eq_iteratedDeriv (uniqueDiffOn_uIcc hne)
        (speed_contDiffAt (hp m left_mem_uIcc)) left_mem_uIcc, smul_eq_mul]
      ring
    rw [hT] at hx2
    rw [abs_sub_comm, hx2, abs_div, abs_mul, abs_pow]
    have h7 : ((6 + 1).factorial : ℝ) = 5040 := by norm_num [Nat.factorial]
    rw [h7, abs_of_pos (by norm_num : (0 : ℝ) < 5040)]
    have := hM x' (uIoo_subset_uIcc_self hx')
    gcongr

/-- `Chain S ε low segs e v`: the segments cover the parameters from `low` to `e`, the first
one starts with the value zero, each one starts where the one before ends, with the value the
one before has there, `v` is the value at `e`, and the derivative of each one is within `ε`
of `S`. -/
inductive Chain (S : ℝ → ℝ) (ε low : ℝ) : List Segment → ℝ → ℝ → Prop
  | nil : Chain S ε low [] low 0
  | snoc {segs e v s w} : Chain S ε low segs e v → s.start = e → s.int[0]? = some v → 0 < w →
      (∀ x ∈ Icc 0 w, ∃ d, HasDerivAt (polyval s.int) d x ∧ |d - S (e + x)| ≤ ε) →
      Chain S ε low (segs ++ [s]) (e + w) (polyval s.int w)

theorem setFirst_spec {p r : List ℝ} {v : ℝ} (h : setFirst (polyint p) v = some r) :
    r[0]? = some v ∧ (∀ x, polyval r x = polyval (polyint p) x + v) ∧
    ∀ x, HasDerivAt (polyval r) (polyval p x) x := by
  simp only [polyint, setFirst, Option.some.injEq] at h
  subst h
  have h1 : ∀ x, polyval (v :: intFrom 0 p) x = polyval (polyint p) x + v := by
    intro x
    have h1 : ∀ c q, polyval (c :: q) x = polyval q x * x + c := fun _ _ => rfl
    rw [polyint, h1, h1]; ring
  refine ⟨rfl, h1, fun x => ?_⟩
  have e : polyval (v :: intFrom 0 p) = fun x => polyval (polyint p) x + v := funext h1
  rw [e]
  exact (polyint_hasDerivAt p x).add_const v

theorem polyval_zero {p : List ℝ} {v : ℝ} (h : p[0]? = some v) : polyval p 0 = v := by
  cases p with
  | nil => simp at h
  | cons c p =>
    simp only [List.getElem?_cons_zero, Option.some.injEq] at h
    subst h
    simp [polyval]

/-- Every Taylor polynomial is good on the parameters which are at most `step` away. -/
def Good (p : List ℝ) (S : ℝ → ℝ) (ε low high step : ℝ) : Prop :=
  ∀ m r, m ∈ Icc low high → taylorSequence p m 7 = some r →
    ∀ t ∈ Icc low high, |t - m| ≤ step → |polyval r (t - m) - S t| ≤ ε

theorem segLoop_spec {p : List ℝ} {S : ℝ → ℝ} {ε low high step : ℝ}
    (hg : Good p S ε low high step) (hstep : 0 < step) :
    ∀ {n i : ℕ} {prev : List ℝ} {sum : ℝ} {segs : List Segment} {r : List ℝ × ℝ × List Segment},
    segLoop p low step n i prev sum segs = some r → 1 ≤ i →
    low + step * (((n + i : ℕ) : ℝ) - 1 / 2) ≤ high →
    taylorSequence p (low + step * ((i : ℝ) - 1 / 2)) 7 = some prev →
    Chain S ε low segs (low + step * ((i : ℝ) - 1 / 2)) sum →
    Chain S ε low r.2.2 (low + step * (((n + i : ℕ) : ℝ) - 1 / 2)) r.2.1 ∧
    taylorSequence p (low + step * (((n + i : ℕ) : ℝ) - 1 / 2)) 7 = some r.1
  | 0, i, prev, sum, segs, r, h, hi, hh, ht, hc => by
    simp only [segLoop, Option.some.injEq] at h
    subst h
    rw [Nat.zero_add]
    exact ⟨hc, ht⟩
  | n + 1, i, prev, sum, segs, r, h, hi, hh, ht, hc => by
    rw [segLoop] at h
    obtain ⟨seq, hseq, h1⟩ := Option.bind_eq_some_iff.1 h
    obtain ⟨o, ho, h2⟩ := Option.bind_eq_some_iff.1 h1
    obtain ⟨w, hw, h3⟩ := Option.bind_eq_some_iff.1 h2
    obtain ⟨int, hint, h4⟩ := Option.bind_eq_some_iff.1 h3
    obtain ⟨s1, s2, s3⟩ := setFirst_spec hint
    have hi1 : (1 : ℝ) ≤ (i : ℝ) := by exact_mod_cast hi
    have hn0 : (0 : ℝ) ≤ (n : ℝ) := Nat.cast_nonneg n
    have e1 : low + step * ((i : ℝ) + 1 / 2) - step = low + step * ((i : ℝ) - 1 / 2) := by ring
    have e2 : low + step * (((i + 1 : ℕ) : ℝ) - 1 / 2) = low + step * ((i : ℝ) + 1 / 2) := by
      push_cast; ring
    have e3 : n + (i + 1) = n + 1 + i := by omega
    have hend : low + step * ((i : ℝ) + 1 / 2) ≤ high := by
      refine le_trans ?_ hh
      push_cast
      nlinarith
    have := segLoop_spec hg hstep h4 (by omega) (by rw [e3]; exact hh) (by rw [e2]; exact hseq) ?_
    · rw [e3] at this; exact this
    · have hlo : low ≤ low + step * ((i : ℝ) - 1 / 2) := by nlinarith
      have hc' := Chain.snoc (s := ⟨low + step * ((i : ℝ) + 1 / 2) - step, int⟩) (w := step) hc e1
        s1 hstep (fun x hx => ⟨polyval w x, s3 x, ?_⟩)
      · simp only [s2] at hc'
        rw [e2, add_comm sum]
        have e4 : low + step * ((i : ℝ) - 1 / 2) + step = low + step * ((i : ℝ) + 1 / 2) := by
          ring
        rw [e4] at hc'
        exact hc'
      · rw [polyweight_spec hw, (polyoffset_spec ho x).1]
        have ha : |polyval prev x - S (low + step * ((i : ℝ) - 1 / 2) + x)| ≤ ε := by
          have := hg _ _ ⟨hlo, by nlinarith [hx.1, hx.2]⟩ ht
            (low + step * ((i : ℝ) - 1 / 2) + x) ⟨by linarith [hx.1], by linarith [hx.2]⟩
            (by rw [add_sub_cancel_left, abs_of_nonneg hx.1]; exact hx.2)
          rwa [add_sub_cancel_left] at this
        have hb : |polyval seq (x + -step) - S (low + step * ((i : ℝ) - 1 / 2) + x)| ≤ ε := by
          have e5 : low + step * ((i : ℝ) - 1 / 2) + x - (low + step * ((i : ℝ) + 1 / 2)) =
              x + -step := by ring
          have := hg _ _ ⟨by linarith, hend⟩ hseq
            (low + step * ((i : ℝ) - 1 / 2) + x) ⟨by linarith [hx.1], by linarith [hx.2]⟩
            (by rw [e5, abs_le]; constructor <;> linarith [hx.1, hx.2])
          rwa [e5] at this
        generalize polyval prev x = a at ha ⊢
        generalize polyval seq (x + -step) = b at hb ⊢
        generalize S (low + step * ((i : ℝ) - 1 / 2) + x) = c at ha hb ⊢
        have w1 : (x - step) / (0 - step) = 1 - x / step := by
          rw [zero_sub, div_neg, sub_div, div_self hstep.ne']; ring
        have w2 : (x - 0) / (step - 0) = x / step := by rw [sub_zero, sub_zero]
        rw [w1, w2]
        have q0 : 0 ≤ x / step := div_nonneg hx.1 hstep.le
        have q1 : x / step ≤ 1 := (div_le_one hstep).2 hx.2
        generalize x / step = q at q0 q1
        rw [abs_le] at ha hb ⊢
        constructor <;> nlinarith

theorem buildSegments_spec {p : List ℝ} {S : ℝ → ℝ} {ε high : ℝ} {n : ℕ} {segs : List Segment}
    (h : buildSegments p 0 high n = some segs) (hh : 0 < high)
    (hg : Good p S ε 0 high (high / ((n + 1 : ℕ) : ℝ))) :
    ∃ segs' v int, segs = segs' ++ [⟨high, int⟩] ∧ Chain S ε 0 segs' high v ∧
      int[0]? = some v := by
  set step := high / ((n + 1 : ℕ) : ℝ) with hs
  have hn1 : (0 : ℝ) < ((n + 1 : ℕ) : ℝ) := by positivity
  have hstep : 0 < step := by positivity
  have hmul : step * ((n + 1 : ℕ) : ℝ) = high := by rw [hs]; field_simp
  have hle : step ≤ high := by
    rw [hs, div_le_iff₀ hn1]
    push_cast
    nlinarith [Nat.cast_nonneg (α := ℝ) n]
  rw [buildSegments] at h
  simp only [sub_zero, ← hs] at h
  obtain ⟨prev, hprev, h1⟩ := Option.bind_eq_some_iff.1 h
  obtain ⟨o, ho, h2⟩ := Option.bind_eq_some_iff.1 h1
  obtain ⟨int, hint, h3⟩ := Option.bind_eq_some_iff.1 h2
  obtain ⟨⟨prev1, sum1, segs1⟩, hloop, h4⟩ := Option.bind_eq_some_iff.1 h3
  simp only [] at h4
  obtain ⟨int1, hint1, h5⟩ := Option.bind_eq_some_iff.1 h4
  obtain ⟨o1, ho1, h6⟩ := Option.bind_eq_some_iff.1 h5
  obtain ⟨int2, hint2, h7⟩ := Option.bind_eq_some_iff.1 h6
  simp only [Option.some.injEq] at h7
  obtain ⟨s1, s2, s3⟩ := setFirst_spec hint
  have hc := Chain.snoc (S := S) (ε := ε) (s := ⟨0, int⟩) (w := step / 2)
    (Chain.nil (low := 0)) rfl s1 (by positivity) (fun x hx => ⟨polyval o x, s3 x, by
      rw [(polyoffset_spec ho x).1, zero_add]
      have e5 : x - step * (1 / 2) = x + -step * (1 / 2) := by ring
      have := hg _ _ ⟨by linarith, by linarith⟩ hprev x ⟨hx.1, by linarith [hx.2]⟩
        (by rw [abs_le]; constructor <;> linarith [hx.1, hx.2])
      rwa [e5] at this⟩)
  have hm : (0 : ℝ) + step / 2 = 0 + step * (((1 : ℕ) : ℝ) - 1 / 2) := by push_cast; ring
  have hm' : step * (1 / 2) = 0 + step * (((1 : ℕ) : ℝ) - 1 / 2) := by push_cast; ring
  simp only [s2, List.nil_append] at hc
  rw [hm, add_comm (polyval (polyint o) (step / 2)) 0] at hc
  rw [hm'] at hprev
  obtain ⟨c1, c2⟩ := segLoop_spec hg hstep hloop le_rfl (by
    rw [← hmul]; push_cast; nlinarith) hprev hc
  simp only [] at c1 c2
  obtain ⟨t1, t2, t3⟩ := setFirst_spec hint1
  have hend : high - step / 2 = 0 + step * (((n + 1 : ℕ) : ℝ) - 1 / 2) := by
    rw [← hmul]; ring
  have hc2 := Chain.snoc (s := ⟨high - step / 2, int1⟩) (w := step * (1 / 2)) c1
    hend t1 (by positivity) (fun x hx => ⟨polyval prev1 x, t3 x, by
      have := hg _ _ ⟨by rw [← hend]; linarith, by rw [← hend]; linarith⟩ c2
        (0 + step * (((n + 1 : ℕ) : ℝ) - 1 / 2) + x)
        ⟨by rw [← hend]; linarith [hx.1], by rw [← hend]; linarith [hx.2]⟩
        (by rw [add_sub_cancel_left, abs_of_nonneg hx.1]; linarith [hx.2])
      rwa [add_sub_cancel_left] at this⟩)
  rw [← hend] at hc2
  have e6 : high - step / 2 + step * (1 / 2) = high := by ring
  simp only [e6, t2] at hc2
  rw [add_comm _ sum1] at hc2
  obtain ⟨u1, -, -⟩ := setFirst_spec hint2
  exact ⟨_, _, int2, h7.symm, hc2, u1⟩

/-! ### What a chain says about its segments -/

theorem Chain.le {S : ℝ → ℝ} {ε low e v : ℝ} {segs : List Segment}
    (h : Chain S ε low segs e v) : low ≤ e := by
  induction h with
  | nil => exact le_rfl
  | snoc _ _ _ hw _ ih => linarith

/-- The difference to the exact integral grows at most with the rate `ε`. -/
theorem drift {f F S : ℝ → ℝ} {e w ε a : ℝ}
    (hf : ∀ x ∈ Icc 0 w, ∃ d, HasDerivAt f d x ∧ |d - S (e + x)| ≤ ε)
    (hF : ∀ t, HasDerivAt F (S t) t) (h0 : |f 0 - F e| ≤ a) {x : ℝ} (hx : x ∈ Icc 0 w) :
    |f x - F (e + x)| ≤ a + ε * x := by
  have hF' : ∀ y, HasDerivAt (fun y => F (e + y)) (S (e + y)) y := fun y => by
    have := (hF (e + y)).comp y ((hasDerivAt_id y).const_add e)
    simpa [Function.comp_def] using this
  choose! d hd hd' using hf
  have h1 : ∀ y ∈ Icc 0 w, HasDerivWithinAt (fun y => f y - F (e + y)) (d y - S (e + y))
      (Icc 0 w) y := fun y hy => ((hd y hy).sub (hF' y)).hasDerivWithinAt
  have := (convex_Icc (0 : ℝ) w).norm_image_sub_le_of_norm_hasDerivWithin_le h1
    (fun y hy => by rw [Real.norm_eq_abs]; exact hd' y hy)
    (show (0 : ℝ) ∈ Icc 0 w from ⟨le_rfl, hx.1.trans hx.2⟩) hx
  rw [Real.norm_eq_abs, Real.norm_eq_abs, sub_zero, abs_of_nonneg hx.1, add_zero] at this
  calc |f x - F (e + x)| = |(f 0 - F e) + (f x - F (e + x) - (f 0 - F e))| := by ring_nf
    _ ≤ |f 0 - F e| + |f x - F (e + x) - (f 0 - F e)| := abs_add_le _ _
    _ ≤ a + ε * x := add_le_add h0 this

theorem Chain.error {S F : ℝ → ℝ} {ε low e v : ℝ} {segs : List Segment}
    (h : Chain S ε low segs e v) (hF : ∀ t, HasDerivAt F (S t) t) (hF0 : F low = 0) :
    |v - F e| ≤ ε * (e - low) := by
  induction h with
  | nil => simp [hF0]
  | @snoc segs e v s w hc hs hi hw hd ih =>
    have := drift hd hF (a := ε * (e - low)) (by rw [polyval_zero hi]; exact ih) ⟨hw.le, le_rfl⟩
    calc _ ≤ ε * (e - low) + ε * w := this
      _ = ε * (e + w - low) := by ring

/-- What is known about one segment: `w` is its width, `v` the value at its end. -/
structure Piece (S : ℝ → ℝ) (ε low : ℝ) (s : Segment) (w v : ℝ) : Prop where
  above : low ≤ s.start
  pos : 0 < w
  last : polyval s.int w = v
  first : ∃ v0, s.int[0]? = some v0
  deriv : ∀ x ∈ Icc 0 w, ∃ d, HasDerivAt (polyval s.int) d x ∧ |d - S (s.start + x)| ≤ ε
  error : ∀ F : ℝ → ℝ, (∀ t, HasDerivAt F (S t) t) → F low = 0 → ∀ x ∈ Icc 0 w,
    |polyval s.int x - F (s.start + x)| ≤ ε * (s.start + x - low)

/-- Each segment but the last ends where the next one starts. -/
theorem Chain.piece {S : ℝ → ℝ} {ε low e v : ℝ} {segs : List Segment}
    (h : Chain S ε low segs e v) (t : Segment) (ht : t.start = e) (hv : t.int[0]? = some v)
    {i : ℕ} {s s' : Segment} (h1 : (segs ++ [t])[i]? = some s)
    (h2 : (segs ++ [t])[i + 1]? = some s') :
    ∃ v', s'.int[0]? = some v' ∧ Piece S ε low s (s'.start - s.start) v' := by
  induction h generalizing t i s s' with
  | nil => simp at h2
  | @snoc segs e v s1 w hc hs hi hw hd ih =>
    have hi2 : i + 1 < (segs ++ [s1] ++ [t]).length := (List.getElem?_eq_some_iff.1 h2).1
    simp only [List.length_append, List.length_cons, List.length_nil] at hi2
    by_cases hlt : i + 1 < segs.length + 1
    · rw [List.getElem?_append_left (by simp; omega)] at h1 h2
      exact ih s1 hs hi h1 h2
    · have hie : i = segs.length := by omega
      subst hie
      rw [List.getElem?_append_left (by simp),
        List.getElem?_append_right (by omega), Nat.sub_self, List.getElem?_cons_zero,
        Option.some.injEq] at h1
      rw [List.getElem?_append_right (by simp)] at h2
      simp only [List.length_append, List.length_cons, List.length_nil, Nat.zero_add,
        Nat.sub_self, List.getElem?_cons_zero, Option.some.injEq] at h2
      subst h1; subst h2
      refine ⟨_, hv, ?_⟩
      have ew : t.start - s1.start = w := by rw [ht, hs]; ring
      rw [ew]
      refine ⟨by rw [hs]; exact hc.le, hw, rfl, ⟨v, hi⟩, by rw [hs]; exact hd, ?_⟩
      intro F hF hF0 x hx
      have := drift hd hF (a := ε * (e - low))
        (by rw [polyval_zero hi]; exact hc.error hF hF0) hx
      rw [hs]
      calc _ ≤ ε * (e - low) + ε * x := this
        _ = ε * (e + x - low) := by ring

end StepperPaths.SqrtPoly
