import Verif.Proof.RoundedApp
import Verif.Proof.SqrtPoly

/-! The errors of the operations with polynomials, `Verif.Model.RoundedBezier`. -/

namespace StepperPaths.Rounded.Acc
open Spec SqrtPoly

variable {fl : ℝ → ℝ} {k l n m kt : ℕ} {x' x X t' t T : ℝ} {p' p A a' a b' b B : List ℝ}

theorem polyval_app (hf : FloatRounding fl) (ht : App kt m t' t T) (h : Apps k n p' p A) :
    n + m * p.length ≤ 1022 →
      App (k + (kt + 2) * p.length) (n + m * p.length) (polyvalF fl p' t') (polyval p t) (polyval A T) := by
  induction h with
  | nil => exact fun _ => App.zero _ _ le_rfl
  | @cons x' x X q' q B hx hs ih =>
    intro hn
    rw [List.length_cons] at hn ⊢
    have hn' : n + m * q.length + m ≤ 1022 := by rw [Nat.mul_succ] at hn; omega
    have h1 := ih (by omega)
    have h2 := (h1.mul ht).rnd hf hn'
    have h3 := (h2.add (hx.mono (l := k + (kt + 2) * q.length + kt + 1) (by omega)
      (m := n + m * q.length + m) (by omega))).rnd hf hn'
    exact h3.mono (le_of_eq (by ring)) (le_of_eq (by ring))

theorem derFrom_app (hf : FloatRounding fl) (hn : n ≤ 1022) (h : Apps k n p' p A) :
    ∀ i, Apps (k + 1) n (derFromF fl i p') (derFrom i p) (derFrom i A) := by
  induction h with
  | nil => exact fun _ => .nil
  | cons hx hs ih => exact fun i => .cons ((hx.mul (App.nat (i + 1))).rnd hf hn) (ih (i + 1))

theorem polyder_app (hf : FloatRounding fl) (hn : n ≤ 1022) (h : Apps k n p' p A) :
    Opt3 (Apps (k + 1) n) (polyderF fl p') (polyder p) (polyder A) := by
  cases h with
  | nil => trivial
  | cons hx hs => exact derFrom_app hf hn hs 0

theorem intFrom_app (hf : FloatRounding fl) (hn : n + 4 ≤ 1022) (h : Apps k n p' p A) :
    ∀ i, i + p.length ≤ 16 → Apps (k + 1) (n + 4) (intFromF fl i p') (intFrom i p) (intFrom i A) := by
  induction h with
  | nil => exact fun _ _ => .nil
  | cons hx hs ih =>
    intro i hi
    rw [List.length_cons] at hi
    exact .cons ((hx.divNat (b := i + 1) (m := 4) (by omega) (by omega)).rnd hf hn) (ih (i + 1) (by omega))

theorem polyint_app (hf : FloatRounding fl) (hn : n + 4 ≤ 1022) (h : Apps k n p' p A) (hl : p.length ≤ 16) :
    Apps (k + 1) (n + 4) (polyintF fl p') (polyint p) (polyint A) :=
  .cons (App.zero _ _ le_rfl) (intFrom_app hf hn h 0 (by omega))

theorem mulSum_app (hf : FloatRounding fl) (hn : n + m ≤ 1022) (ha : Apps k n a' a A) (hb : Apps l m b' b B) (i : ℕ) :
    ∀ (r j c : ℕ) (x' x X : ℝ), App (k + l + 1 + c) (n + m) x' x X →
      Opt3 (App (k + l + 1 + c + r) (n + m)) (mulSumF fl a' b' i r j x') (mulSum a b i r j x) (mulSum A B i r j X)
  | 0, j, c, x', x, X, h => h
  | r + 1, j, c, x', x, X, h => by
    simp only [mulSumF, mulSum]
    split
    · trivial
    · refine (ha.opt (i - j)).bind fun u' u U hu => (hb.opt j).bind fun v' v V hv => ?_
      have h1 := ((hu.mul hv).rnd hf hn).mono (l := k + l + 1 + c) (by omega) le_rfl
      have := mulSum_app hf hn ha hb i r (j + 1) (c + 1) _ _ _ ((h.add h1).rnd hf hn)
      exact this.imp fun _ _ _ h => h.mono (by omega) le_rfl

theorem mulCoeff_app (hf : FloatRounding fl) (hn : n + m ≤ 1022) (ha : Apps k n a' a A) (hb : Apps l m b' b B) (i : ℕ) :
    Opt3 (App (k + l + 1 + b.length) (n + m)) (mulCoeffF fl a' b' i) (mulCoeff a b i) (mulCoeff A B i) := by
  have l1 := ha.length
  have l2 := hb.length
  simp only [mulCoeffF, mulCoeff, l1.1, l1.2, l2.1, l2.2]
  split
  · trivial
  · refine (mulSum_app hf hn ha hb i _ _ 0 0 0 0 (App.zero _ _ le_rfl)).imp fun _ _ _ h => h.mono ?_ le_rfl
    omega

theorem polymul_app (hf : FloatRounding fl) (hn : n + m ≤ 1022) (ha : Apps k n a' a A) (hb : Apps l m b' b B) :
    Opt3 (Apps (k + l + 1 + b.length) (n + m)) (polymulF fl a' b') (polymul a b) (polymul A B) := by
  have l1 := ha.length
  have l2 := hb.length
  simp only [polymulF, polymul, l1.1, l1.2, l2.1, l2.2]
  split
  · trivial
  · exact mapM_apps _ fun i _ => mulCoeff_app hf hn ha hb i

theorem addTo_app (hf : FloatRounding fl) (hn : n ≤ 1022) (ha : Apps k n a' a A) :
    ∀ {b' b B}, Apps k n b' b B → Apps (k + 1) n (addToF fl a' b') (addTo a b) (addTo A B) := by
  induction ha with
  | nil =>
    intro b' b B hb
    simp only [addToF, addTo]
    exact hb.mono (by omega) le_rfl
  | cons hx hs ih =>
    intro b' b B hb
    cases hb with
    | nil => exact .nil
    | cons hy hs' => exact .cons ((hy.add hx).rnd hf hn) (ih hs')

theorem polyadd_app (hf : FloatRounding fl) (hn : n ≤ 1022) (ha : Apps k n a' a A) (hb : Apps k n b' b B) :
    Apps (k + 1) n (polyaddF fl a' b') (polyadd a b) (polyadd A B) := by
  have l1 := ha.length
  have l2 := hb.length
  simp only [polyaddF, polyadd, l1.1, l1.2, l2.1, l2.2]
  split
  · exact addTo_app hf hn hb ha
  · exact addTo_app hf hn ha hb

/-- `r` rounds of the inner loop, which began with the power `j` of the offset. -/
theorem offsetInner_app (hf : FloatRounding fl) {c' c C o' o O : ℝ} {ko kc N : ℕ} (hc : App kc n c' c C) (ho : App ko m o' o O)
    (bin : List ℕ) (i d : ℕ) (hi : i ≤ d) (hN : n + m * (d + 1) ≤ N) (hN' : N ≤ 1022) :
    ∀ (r j z : ℕ) (f' f F : ℝ) (q' q Q : List ℝ), j + r ≤ i + 1 → App ((ko + 1) * j) (m * j) f' f F →
      Apps (kc + (ko + 1) * (d + 1) + 2 + z) N q' q Q →
      Opt3 (Apps (kc + (ko + 1) * (d + 1) + 2 + z + r) N) (offsetInnerF fl c' o' bin i r j f' q') (offsetInner c o bin i r j f q)
        (offsetInner C O bin i r j F Q)
  | 0, j, z, f', f, F, q', q, Q, _, _, hq => hq
  | r + 1, j, z, f', f, F, q', q, Q, hj, hF, hq => by
    simp only [offsetInnerF, offsetInner]
    split
    · trivial
    · have hm : m * j + m ≤ m * (d + 1) := by
        rw [← Nat.mul_succ]; exact Nat.mul_le_mul_left _ (by omega)
      have hk : (ko + 1) * j + (ko + 1) ≤ (ko + 1) * (d + 1) := by
        rw [← Nat.mul_succ]; exact Nat.mul_le_mul_left _ (by omega)
      cases hb : bin[j]? with
      | none => trivial
      | some b =>
        simp only [Option.bind_eq_bind, Option.bind_some]
        refine (hq.opt (i - j)).bind fun u' u U hu => ?_
        have h1 := (hc.mul (App.nat b)).rnd hf (by omega : n + 0 ≤ 1022)
        have h2 := ((h1.mul hF).rnd hf (by omega : n + 0 + m * j ≤ 1022)).mono (l := kc + (ko + 1) * (d + 1) + 2 + z)
          (m := N) (by omega) (by omega)
        have h3 := (hu.add h2).rnd hf hN'
        have h4 := (hF.mul ho).rnd hf (by omega : m * j + m ≤ 1022)
        have := offsetInner_app hf hc ho bin i d hi hN hN' r (j + 1) (z + 1) _ _ _ _ _ _ (by omega)
          (h4.mono (le_of_eq (by ring)) (le_of_eq (by ring))) ((hq.mono (l := kc + (ko + 1) * (d + 1) + 2 + z + 1)
            (by omega) le_rfl).set (i := i - j) h3)
        exact this.imp fun _ _ _ h => h.mono (by omega) le_rfl

theorem offsetLoop_app (hf : FloatRounding fl) {o' o O : ℝ} {ko N d : ℕ} (hp : Apps k n p' p A) (ho : App ko m o' o O)
    (hN : n + m * (d + 1) ≤ N) (hN' : N ≤ 1022) :
    ∀ (r i z : ℕ) (bin : List ℕ) (q' q Q : List ℝ), i + r ≤ d + 1 →
      Apps (k + (ko + 1) * (d + 1) + 2 + z) N q' q Q →
      Opt3 (Apps (k + (ko + 1) * (d + 1) + 2 + z + (d + 1) * r) N) (offsetLoopF fl p' o' r i bin q') (offsetLoop p o r i bin q)
        (offsetLoop A O r i bin Q)
  | 0, i, z, bin, q', q, Q, _, hq => hq
  | r + 1, i, z, bin, q', q, Q, hi, hq => by
    simp only [offsetLoopF, offsetLoop]
    split
    · trivial
    · cases hb : binomialStep (bin.take (i + 1)) with
      | none => trivial
      | some row =>
        simp only [Option.bind_eq_bind, Option.bind_some]
        refine (hp.opt i).bind fun c' c C hc => ?_
        refine (offsetInner_app hf hc ho _ i d (by omega) hN hN' (i + 1) 0 z 1 1 1 q' q Q (by omega)
          (by simpa using (App.nat 1).mono (l := (ko + 1) * 0) (m := m * 0) (by omega) (by omega)) hq).bind fun s' s S hs => ?_
        have := offsetLoop_app hf hp ho hN hN' r (i + 1) (z + (d + 1)) (row ++ bin.drop (i + 1)) s' s S (by omega)
          (hs.mono (by omega) le_rfl)
        exact this.imp fun _ _ _ h => h.mono (le_of_eq (by ring)) le_rfl

theorem polyoffset_app (hf : FloatRounding fl) {o' o O : ℝ} {ko d : ℕ} (hp : Apps k n p' p A) (ho : App ko m o' o O)
    (hd : p.length = d + 1) (hN : n + m * (d + 1) ≤ 1022) :
    Opt3 (Apps (k + (ko + 1) * (d + 1) + 2 + (d + 1) * (d + 1)) (n + m * (d + 1))) (polyoffsetF fl p' o') (polyoffset p o)
      (polyoffset A O) := by
  have l1 := hp.length
  simp only [polyoffsetF, polyoffset, l1.1, l1.2, hd]
  exact offsetLoop_app hf hp ho le_rfl hN (d + 1) 0 0 _ _ _ _ (by omega) (Apps.zeros _ _ _)

end StepperPaths.Rounded.Acc
