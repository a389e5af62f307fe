import Verif.Proof.SqrtPoly
import Mathlib.Analysis.Calculus.IteratedDeriv.Defs
import Mathlib.Analysis.SpecialFunctions.Pow.Deriv
import Mathlib.Analysis.SpecialFunctions.Sqrt
import Mathlib.Topology.Algebra.Polynomial

/-! Proofs about `taylor_sequence`, `Verif.Model.SqrtPoly`. -/

namespace StepperPaths.SqrtPoly
open Polynomial Topology Filter

/-- The function a list of terms stands for. -/
noncomputable def termsFun (base : List ℝ) (ts : List Term) (t : ℝ) : ℝ :=
  (ts.map fun sp => Diff.eval ⟨t, base⟩ sp).sum

theorem polyval_hasDerivAt {p q : List ℝ} (h : polyder p = some q) (t : ℝ) :
    HasDerivAt (polyval p) (polyval q t) t := by
  have := (toPoly p).hasDerivAt t
  rw [← polyder_toPoly h, toPoly_eval] at this
  have e : (fun x => (toPoly p).eval x) = polyval p := funext (toPoly_eval p)
  rwa [e] at this

theorem polyval_continuous (p : List ℝ) : Continuous (polyval p) := by
  have e : (fun x => (toPoly p).eval x) = polyval p := funext (toPoly_eval p)
  rw [← e]
  exact (toPoly p).continuous

theorem diffSingle_hasDerivAt {base : List ℝ} {t s : ℝ} {sp d1 d2 : Term}
    (h : diffSingle ⟨s, base⟩ sp = some (d1, d2)) (hp : 0 < polyval base t) :
    HasDerivAt (fun t => Diff.eval ⟨t, base⟩ sp)
      (Diff.eval ⟨t, base⟩ d1 + Diff.eval ⟨t, base⟩ d2) t := by
  rw [diffSingle] at h
  obtain ⟨db, hdb, h1⟩ := Option.bind_eq_some_iff.1 h
  obtain ⟨m, hm, h2⟩ := Option.bind_eq_some_iff.1 h1
  obtain ⟨dp, hdp, h3⟩ := Option.bind_eq_some_iff.1 h2
  simp only [Option.some.injEq, Prod.mk.injEq] at h3
  obtain ⟨rfl, rfl⟩ := h3
  have e1 := (polyval_hasDerivAt hdb t).rpow_const (p := (sp.e : ℝ) / 2) (Or.inl hp.ne')
  have e2 := (e1.mul_const sp.c).mul (polyval_hasDerivAt hdp t)
  simp only [Diff.eval, Diff.baseVal]
  refine HasDerivAt.congr_deriv e2 ?_
  rw [← toPoly_eval m, polymul_toPoly hm, eval_mul, toPoly_eval, toPoly_eval]
  have e3 : (((sp.e - 2 : ℤ) : ℝ) / 2) = (sp.e : ℝ) / 2 - 1 := by push_cast; ring
  rw [e3]
  ring

theorem diffLoop_spec {base : List ℝ} {s : ℝ} :
    ∀ {spa res r : List Term} {sum v : ℝ}, diffLoop ⟨s, base⟩ spa res sum = some (r, v) →
    sum = termsFun base res s → v = termsFun base r s ∧
    ∀ t, 0 < polyval base t → ∀ d, HasDerivAt (termsFun base spa) d t →
      termsFun base r t = termsFun base res t + d
  | [], res, r, sum, v, h, hs => by
    simp only [diffLoop, Option.some.injEq, Prod.mk.injEq] at h
    obtain ⟨rfl, rfl⟩ := h
    refine ⟨hs, fun t _ d hd => ?_⟩
    have : HasDerivAt (termsFun base []) 0 t := by
      have e : termsFun base [] = fun _ => 0 := rfl
      rw [e]; exact hasDerivAt_const _ _
    rw [hd.unique this, add_zero]
  | sp :: spa, res, r, sum, v, h, hs => by
    rw [diffLoop] at h
    obtain ⟨⟨d1, d2⟩, hd, h1⟩ := Option.bind_eq_some_iff.1 h
    simp only [] at h1
    have key : ∀ res' : List Term, (∀ t, termsFun base res' t =
        termsFun base res t + (Diff.eval ⟨t, base⟩ d1 + Diff.eval ⟨t, base⟩ d2)) →
        (∀ t, 0 < polyval base t → ∀ d, HasDerivAt (termsFun base spa) d t →
          termsFun base r t = termsFun base res' t + d) →
        ∀ t, 0 < polyval base t → ∀ d, HasDerivAt (termsFun base (sp :: spa)) d t →
          termsFun base r t = termsFun base res t + d := by
      intro res' hr' hk t ht d hd'
      have e1 := diffSingle_hasDerivAt hd ht
      have e2 := hd'.sub e1
      have e3 : termsFun base (sp :: spa) - (fun t => Diff.eval ⟨t, base⟩ sp) =
          termsFun base spa := by
        funext x; simp [termsFun]
      rw [e3] at e2
      rw [hk t ht _ e2, hr' t]; ring
    split at h1
    · rename_i he
      have hz : ∀ t, Diff.eval ⟨t, base⟩ d2 = 0 := by
        intro t
        rw [List.isEmpty_iff] at he
        simp [Diff.eval, he, polyval]
      obtain ⟨i1, i2⟩ := diffLoop_spec h1 (by rw [hs]; simp [termsFun])
      exact ⟨i1, key _ (fun t => by rw [hz t]; simp [termsFun]) i2⟩
    · obtain ⟨i1, i2⟩ := diffLoop_spec h1 (by rw [hs]; simp [termsFun]; ring)
      exact ⟨i1, key _ (fun t => by simp [termsFun]) i2⟩

theorem diffSingle_base {base : List ℝ} {s s' : ℝ} (sp : Term) :
    diffSingle ⟨s, base⟩ sp = diffSingle ⟨s', base⟩ sp := rfl

/-- Every term the loop has to differentiate is differentiable. -/
theorem diffLoop_differentiable {base : List ℝ} {s : ℝ} :
    ∀ {spa res r : List Term} {sum v : ℝ}, diffLoop ⟨s, base⟩ spa res sum = some (r, v) →
    ∀ t, 0 < polyval base t → DifferentiableAt ℝ (termsFun base spa) t
  | [], res, r, sum, v, h, t, ht => by
    have e : termsFun base [] = fun _ => 0 := rfl
    rw [e]; exact differentiableAt_const _
  | sp :: spa, res, r, sum, v, h, t, ht => by
    rw [diffLoop] at h
    obtain ⟨⟨d1, d2⟩, hd, h1⟩ := Option.bind_eq_some_iff.1 h
    simp only [] at h1
    have e1 := (diffSingle_hasDerivAt hd ht).differentiableAt
    have e3 : termsFun base (sp :: spa) =
        (fun t => Diff.eval ⟨t, base⟩ sp) + termsFun base spa := by
      funext x; simp [termsFun]
    rw [e3]
    refine e1.add ?_
    split at h1
    · exact diffLoop_differentiable h1 t ht
    · exact diffLoop_differentiable h1 t ht

theorem diffSqrtPoly_spec {base : List ℝ} {s v : ℝ} {spa r : List Term}
    (h : diffSqrtPoly ⟨s, base⟩ spa = some (r, v)) :
    v = termsFun base r s ∧
    ∀ t, 0 < polyval base t → HasDerivAt (termsFun base spa) (termsFun base r t) t := by
  obtain ⟨h1, h2⟩ := diffLoop_spec h (by simp [termsFun])
  refine ⟨h1, fun t ht => ?_⟩
  have hd := (diffLoop_differentiable h t ht).hasDerivAt
  have := h2 t ht _ hd
  have e : termsFun base [] t = 0 := rfl
  rw [e, zero_add] at this
  rwa [this]

theorem taylorLoop_spec {base : List ℝ} {s : ℝ} {f : ℝ → ℝ} (hs : 0 < polyval base s) :
    ∀ {n i : ℕ} {sp : List Term} {fact : ℝ} {coeffs r : List ℝ},
    taylorLoop ⟨s, base⟩ n (i + 1) sp fact coeffs = some r →
    (∀ t, 0 < polyval base t → iteratedDeriv i f t = termsFun base sp t) →
    fact = (i.factorial : ℝ) → coeffs.length = i + 1 →
    (∀ k ≤ i, coeffs.getD k 0 = iteratedDeriv k f s / (k.factorial : ℝ)) →
    r.length = i + 1 + n ∧
    ∀ k ≤ i + n, r.getD k 0 = iteratedDeriv k f s / (k.factorial : ℝ)
  | 0, i, sp, fact, coeffs, r, h, hf, hfac, hlen, hc => by
    simp only [taylorLoop, Option.some.injEq] at h
    subst h
    exact ⟨hlen, hc⟩
  | n + 1, i, sp, fact, coeffs, r, h, hf, hfac, hlen, hc => by
    rw [taylorLoop] at h
    obtain ⟨⟨sp1, v⟩, hd, h1⟩ := Option.bind_eq_some_iff.1 h
    simp only [] at h1
    obtain ⟨d1, d2⟩ := diffSqrtPoly_spec hd
    have hnext : ∀ t, 0 < polyval base t → iteratedDeriv (i + 1) f t = termsFun base sp1 t := by
      intro t ht
      rw [iteratedDeriv_succ]
      have hev : iteratedDeriv i f =ᶠ[𝓝 t] termsFun base sp := by
        have ho : IsOpen {x | 0 < polyval base x} :=
          isOpen_lt continuous_const (polyval_continuous base)
        filter_upwards [ho.mem_nhds ht] with x hx using hf x hx
      rw [hev.deriv_eq]
      exact (d2 t ht).deriv
    have hfac' : fact * ((i + 1 : ℕ) : ℝ) = ((i + 1).factorial : ℝ) := by
      rw [hfac, Nat.factorial_succ]; push_cast; ring
    have hcs : ∀ k ≤ i + 1, (coeffs ++ [v / (fact * ((i + 1 : ℕ) : ℝ))]).getD k 0 =
        iteratedDeriv k f s / (k.factorial : ℝ) := by
      intro k hk
      by_cases hk' : k ≤ i
      · rw [List.getD_append _ _ _ _ (by omega)]
        exact hc k hk'
      · have : k = i + 1 := by omega
        subst this
        rw [List.getD_append_right _ _ _ _ (by omega), hlen, Nat.sub_self, List.getD_cons_zero,
          hfac', hnext s hs, d1]
    obtain ⟨r1, r2⟩ := taylorLoop_spec hs h1 hnext hfac' (by simp [hlen]) hcs
    exact ⟨by omega, fun k hk => r2 k (by omega)⟩

theorem taylorSequence_spec {p : List ℝ} {t0 : ℝ} {n : ℕ} {r : List ℝ}
    (h : taylorSequence p t0 n = some r) (hp : 0 < polyval p t0) :
    r.length = max n 1 ∧ ∀ k < max n 1, r.getD k 0 =
      iteratedDeriv k (fun t => Real.sqrt (polyval p t)) t0 / (k.factorial : ℝ) := by
  obtain ⟨h1, h2⟩ := taylorLoop_spec (i := 0) (f := fun t => Real.sqrt (polyval p t)) hp h
    (fun t ht => by
      simp only [iteratedDeriv_zero, termsFun, Diff.eval, Diff.baseVal, List.map_cons,
        List.map_nil, List.sum_cons, List.sum_nil, polyval, List.foldr_cons, List.foldr_nil]
      rw [Real.sqrt_eq_rpow]
      norm_num) (by simp) (by simp) (fun k hk => by
      have : k = 0 := by omega
      subst this
      simp)
  exact ⟨by omega, fun k hk => h2 k (by omega)⟩

theorem diffLoop_isSome {d : Diff} (hb : 2 ≤ d.base.length) :
    ∀ {spa res : List Term} {sum : ℝ}, (∀ sp ∈ spa, sp.polynom ≠ []) →
    (∀ sp ∈ res, sp.polynom ≠ []) →
    ∃ r v, diffLoop d spa res sum = some (r, v) ∧ ∀ sp ∈ r, sp.polynom ≠ []
  | [], res, sum, _, hr => ⟨res, sum, rfl, hr⟩
  | sp :: spa, res, sum, hs, hr => by
    obtain ⟨db, hdb⟩ := polyder_isSome (p := d.base) (by rintro h; simp [h] at hb)
    have hdbl := polyder_length hdb
    have hdb0 : db ≠ [] := by rintro rfl; simp at hdbl; omega
    obtain ⟨m, hm⟩ := polymul_isSome (a := sp.polynom) hdb0
    have hsp := hs sp (by simp)
    obtain ⟨dp, hdp⟩ := polyder_isSome hsp
    have hml := polymul_length hm
    have hspl : 0 < sp.polynom.length := List.length_pos_iff.2 hsp
    have hdbl0 : 0 < db.length := List.length_pos_iff.2 hdb0
    have hm0 : m ≠ [] := by rintro rfl; simp at hml; omega
    have hsing : diffSingle d sp =
        some (⟨sp.c * (1 / 2) * (sp.e : ℝ), sp.e - 2, m⟩, ⟨sp.c, sp.e, dp⟩) := by
      rw [diffSingle, hdb, Option.bind_eq_bind, Option.bind_some, hm]
      simp only [Option.bind_some, hdp]
    rw [diffLoop, hsing]
    simp only [Option.bind_eq_bind, Option.bind_some]
    have hs' : ∀ sp ∈ spa, sp.polynom ≠ [] := fun x hx => hs x (by simp [hx])
    split
    · apply diffLoop_isSome hb hs'
      intro x hx
      rw [List.mem_append, List.mem_singleton] at hx
      rcases hx with hx | rfl
      · exact hr x hx
      · exact hm0
    · rename_i he
      apply diffLoop_isSome hb hs'
      intro x hx
      rw [List.mem_append, List.mem_append, List.mem_singleton, List.mem_singleton] at hx
      rcases hx with (hx | rfl) | rfl
      · exact hr x hx
      · exact hm0
      · intro h0
        simp only [] at h0 he
        simp [h0] at he

theorem taylorLoop_isSome {d : Diff} (hb : 2 ≤ d.base.length) :
    ∀ {n i : ℕ} {sp : List Term} {fact : ℝ} {coeffs : List ℝ}, (∀ x ∈ sp, x.polynom ≠ []) →
    ∃ r, taylorLoop d n i sp fact coeffs = some r
  | 0, _, _, _, coeffs, _ => ⟨coeffs, rfl⟩
  | n + 1, i, sp, fact, coeffs, hs => by
    obtain ⟨r, v, h, hr⟩ := diffLoop_isSome (d := d) hb (spa := sp) (res := []) (sum := 0) hs
      (by simp)
    obtain ⟨q, hq⟩ := taylorLoop_isSome (n := n) (i := i + 1) (fact := fact * (i : ℝ))
      (coeffs := coeffs ++ [v / (fact * (i : ℝ))]) hb hr
    refine ⟨q, ?_⟩
    rw [taylorLoop, diffSqrtPoly, h]
    exact hq

theorem taylorSequence_isSome {p : List ℝ} (hp : 2 ≤ p.length) (t0 : ℝ) (n : ℕ) :
    ∃ r, taylorSequence p t0 n = some r :=
  taylorLoop_isSome (d := ⟨t0, p⟩) hp (by simp)

end StepperPaths.SqrtPoly
