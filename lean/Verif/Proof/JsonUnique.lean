import Verif.Proof.JsonValues

/-! A text is the text of at most one value. -/

namespace StepperPaths.ConfigText
open Svg StepperPaths.Spec.Svg StepperPaths.Spec.Json

theorem ws_inj {w w' i i' : List Char} (hw : Ws w) (hw' : Ws w') (hi : NoHead isWs i) (hi' : NoHead isWs i')
    (h : w ++ i = w' ++ i') : w = w' ∧ i = i' := by
  have a := takeWhile_run (ws_iff.1 hw) hi
  have b := takeWhile_run (ws_iff.1 hw') hi'
  rw [h] at a
  exact ⟨a.1.symm.trans b.1, a.2.symm.trans b.2⟩

/-! ### Strings -/

theorem hex_inj {a b : Hex} (ha : a.Valid) (hb : b.Valid) (h : a.char = b.char) : a = b := by
  have hv : a.val = b.val := by
    have := hex_char a
    rw [h, hex_char b] at this
    exact Fin.ext (Option.some.inj this).symm
  obtain ⟨v, c⟩ := a
  obtain ⟨v', c'⟩ := b
  simp only at hv
  subst hv
  by_cases hlt : v.1 < 10
  · rw [show c = false from ha hlt, show c' = false from hb hlt]
  · congr 1
    clear ha hb
    revert v
    cases c <;> cases c' <;> decide

theorem mark_inj {m m' : Mark} (hm : m.Valid) (hm' : m'.Valid) {r r' : List Char}
    (h : m.text ++ r = m'.text ++ r') : m = m' ∧ r = r' := by
  cases m with
  | plain c =>
    obtain ⟨-, -, h1⟩ := hm
    cases m' with
    | plain c' => simpa [Mark.text] using h
    | short e c' => simp [Mark.text, h1] at h
    | hex => simp [Mark.text, h1] at h
  | short e c =>
    cases m' with
    | plain c' => simp [Mark.text, Ne.symm hm'.2.2] at h
    | short e' c' =>
      simp only [Mark.text, List.cons_append, List.nil_append, List.cons.injEq, true_and] at h
      obtain ⟨rfl, rfl⟩ := h
      have := (escape_iff.2 hm).symm.trans (escape_iff.2 hm')
      simp only [Option.some.injEq] at this
      exact ⟨by rw [this], rfl⟩
    | hex =>
      simp only [Mark.text, List.cons_append, List.nil_append, List.cons.injEq, true_and] at h
      rw [h.1] at hm
      exact absurd hm shorts_u
  | hex a b c d =>
    cases m' with
    | plain c' => simp [Mark.text, Ne.symm hm'.2.2] at h
    | short e' c' =>
      simp only [Mark.text, List.cons_append, List.nil_append, List.cons.injEq, true_and] at h
      rw [← h.1] at hm'
      exact absurd hm' shorts_u
    | hex a' b' c' d' =>
      simp only [Mark.text, List.cons_append, List.nil_append, List.cons.injEq, true_and] at h
      obtain ⟨h1, h2, h3, h4, h5⟩ := h
      rw [hex_inj hm.1 hm'.1 h1, hex_inj hm.2.1 hm'.2.1 h2, hex_inj hm.2.2.1 hm'.2.2.1 h3,
        hex_inj hm.2.2.2 hm'.2.2.2 h4]
      exact ⟨rfl, h5⟩

theorem mark_head {m : Mark} (hm : m.Valid) (r : List Char) : ∃ c u, m.text ++ r = c :: u ∧ c ≠ '"' := by
  cases m with
  | plain c => exact ⟨c, r, rfl, hm.2.1⟩
  | short e c => exact ⟨_, _, rfl, by decide⟩
  | hex => exact ⟨_, _, rfl, by decide⟩

theorem marks_inj {s s' : Str} (hs : s.Valid) (hs' : s'.Valid) {r r' : List Char}
    (h : s.flatMap Mark.text ++ '"' :: r = s'.flatMap Mark.text ++ '"' :: r') : s = s' ∧ r = r' := by
  induction s generalizing s' with
  | nil =>
    cases s' with
    | nil => simpa using h
    | cons m s' =>
      rw [List.flatMap_nil, List.nil_append, List.flatMap_cons, List.append_assoc] at h
      obtain ⟨c, u, e, hc⟩ := mark_head (hs' m (by simp)) (s'.flatMap Mark.text ++ '"' :: r')
      rw [e] at h
      exact absurd (List.cons.inj h).1.symm hc
  | cons m s ih =>
    cases s' with
    | nil =>
      rw [List.flatMap_nil, List.nil_append, List.flatMap_cons, List.append_assoc] at h
      obtain ⟨c, u, e, hc⟩ := mark_head (hs m (by simp)) (s.flatMap Mark.text ++ '"' :: r)
      rw [e] at h
      exact absurd (List.cons.inj h).1 hc
    | cons m' s' =>
      rw [List.flatMap_cons, List.flatMap_cons, List.append_assoc, List.append_assoc] at h
      obtain ⟨rfl, h⟩ := mark_inj (hs m (by simp)) (hs' m' (by simp)) h
      replace h := ‹s.flatMap Mark.text ++ '"' :: r = s'.flatMap Mark.text ++ '"' :: r'›
      obtain ⟨rfl, rfl⟩ := ih (fun m hm => hs m (by simp [hm])) (fun m hm => hs' m (by simp [hm])) h
      exact ⟨rfl, rfl⟩

theorem str_inj {s s' : Str} (hs : s.Valid) (hs' : s'.Valid) {r r' : List Char}
    (h : s.text ++ r = s'.text ++ r') : s = s' ∧ r = r' := by
  rw [str_text, str_text] at h
  exact marks_inj hs hs' (List.cons.inj h).2

/-! ### Numbers -/

theorem digits_inj {d d' : Digits} (h : d.text = d'.text) : d = d' := by
  refine List.map_injective_iff.2 ?_ h
  intro a b
  revert a b
  decide

theorem signed_inj {σ σ' : Sign} {d d' : Digits} (hd : d ≠ []) (hd' : d' ≠ []) {r r' : List Char}
    (h : σ.text ++ (d.text ++ r) = σ'.text ++ (d'.text ++ r')) : σ = σ' ∧ d.text ++ r = d'.text ++ r' := by
  match d, d', hd, hd' with
  | a :: d, a' :: d', _, _ =>
    have e1 : Digits.text (a :: d) = digitChar a :: Digits.text d := rfl
    have e2 : Digits.text (a' :: d') = digitChar a' :: Digits.text d' := rfl
    have h1 := digitChar_sign a
    have h2 := digitChar_sign a'
    rw [e1, e2] at h ⊢
    cases σ <;> cases σ' <;> simp [Sign.text] at h ⊢ <;> simp_all [eq_comm]

theorem exp_inj {e e' : Option Exp} (he : ∀ x ∈ e, x.digits ≠ []) (he' : ∀ x ∈ e', x.digits ≠ [])
    (h : expText e = expText e') : e = e' := by
  cases e with
  | none => cases e' with
    | none => rfl
    | some x => simp [expText, Exp.text] at h
  | some x => cases e' with
    | none => simp [expText, Exp.text] at h
    | some y =>
      obtain ⟨c, σ, d⟩ := x
      obtain ⟨c', σ', d'⟩ := y
      simp only [expText, Exp.text, List.cons.injEq] at h
      have hc : c = c' := by
        have := h.1
        cases c <;> cases c' <;> simp at this ⊢
      subst hc
      have := signed_inj (r := []) (r' := []) (he _ rfl) (he' _ rfl) (by simpa using h.2)
      obtain ⟨rfl, h3⟩ := this
      have h4 : d = d' := digits_inj (by simpa using h3)
      rw [h4]

theorem frac_inj {f f' : Option Digits} (h : fracText f = fracText f') : f = f' := by
  cases f with
  | none => cases f' with
    | none => rfl
    | some x => simp [fracText] at h
  | some x => cases f' with
    | none => simp [fracText] at h
    | some y =>
      simp only [fracText, List.cons.injEq, true_and] at h
      rw [digits_inj h]

theorem num_inj {n n' : Num} (hn : NumValid n) (hn' : NumValid n') {r r' : List Char} (hr : Stop r) (hr' : Stop r')
    (h : n.text ++ r = n'.text ++ r') : n = n' ∧ r = r' := by
  have e0 : r = r' := by
    have a := number_text n hn hr
    rw [h, number_text n' hn' hr'] at a
    simp only [Option.some.injEq, Prod.mk.injEq] at a
    exact a.1.symm
  refine ⟨?_, e0⟩
  unfold Num.text at h
  simp only [List.append_assoc] at h
  obtain ⟨hσ, h⟩ := signed_inj hn.whole hn'.whole h
  have e1 := exp_noDigit n.exp r hr.digit
  have e1' := exp_noDigit n'.exp r' hr'.digit
  have a := whole_text n.whole hn.whole hn.zero (fracText_digit n.frac e1)
  rw [h, whole_text n'.whole hn'.whole hn'.zero (fracText_digit n'.frac e1')] at a
  simp only [Option.some.injEq, Prod.mk.injEq] at a
  have b := frac_text n.frac hn.frac e1 (expText_point _ hr)
  rw [← a.1, frac_text n'.frac hn'.frac e1' (expText_point _ hr')] at b
  simp only [Option.some.injEq, Prod.mk.injEq] at b
  have c := expo_text n.exp hn.exp hr
  rw [← b.1, expo_text n'.exp hn'.exp hr'] at c
  simp only [Option.some.injEq, Prod.mk.injEq] at c
  have f1 := digits_inj a.2
  have f2 := frac_inj b.2
  have f3 := exp_inj hn'.exp hn.exp c.2
  obtain ⟨a1, a2, a3, a4⟩ := n
  obtain ⟨b1, b2, b3, b4⟩ := n'
  simp only at hσ f1 f2 f3
  rw [hσ, f1, f2, f3]

/-! ### Values -/

/-- The kind of a value, from its first character. -/
def kind : Tree → Char
  | .null => 'n'
  | .yes => 't'
  | .no => 'f'
  | .num _ => '0'
  | .str _ => '"'
  | .array _ | .arrayOf _ => '['
  | .object _ | .objectOf _ => '{'

def kindOf (c : Char) : Char := if c = '-' ∨ isDigit c then '0' else c

theorem head_kind (t : Tree) (h : t.Valid) (r : List Char) : ((t.text ++ r).head?).map kindOf = some (kind t) := by
  cases t with
  | num n =>
    rw [Tree.Valid] at h
    rw [Tree.text]
    obtain ⟨c, u, e, hc⟩ := num_head n h r
    rw [e]
    simp only [List.head?_cons, Option.map_some, kind, Option.some.injEq, kindOf]
    rw [if_pos]
    rcases hc with rfl | ⟨d, rfl⟩
    · exact .inl rfl
    · exact .inr (digit_isDigit d)
  | _ => rw [Tree.text]; rfl

theorem skip_inj {w w' : List Char} (hw : Ws w) (hw' : Ws w') {t t' : Tree} (ht : t.Valid) (ht' : t'.Valid)
    {r r' : List Char} (h : w ++ (t.text ++ r) = w' ++ (t'.text ++ r')) : w = w' ∧ t.text ++ r = t'.text ++ r' := by
  refine ws_inj hw hw' ?_ ?_ h
  · obtain ⟨c, u, e, hc, -⟩ := tree_head t ht r
    rw [e]
    exact noHead_cons.2 hc
  · obtain ⟨c, u, e, hc, -⟩ := tree_head t' ht' r'
    rw [e]
    exact noHead_cons.2 hc

theorem char_inj {w w' : List Char} (hw : Ws w) (hw' : Ws w') {c c' : Char} (hc : isWs c = false)
    (hc' : isWs c' = false) {r r' : List Char} (h : w ++ c :: r = w' ++ c' :: r') : w = w' ∧ c = c' ∧ r = r' := by
  obtain ⟨h1, h2⟩ := ws_inj hw hw' (noHead_cons.2 hc) (noHead_cons.2 hc') h
  exact ⟨h1, List.cons.inj h2⟩

/-- The head of the text of a tree `t` and the head of the text of a tree `t'` with equal texts have equal kinds. -/
theorem kind_eq {t t' : Tree} (h : t.Valid) (h' : t'.Valid) {r r' : List Char} (e : t.text ++ r = t'.text ++ r') :
    kind t = kind t' := by
  have a := head_kind t h r
  rw [e, head_kind t' h' r'] at a
  exact (Option.some.inj a).symm

theorem array_elems {w : List Char} (hw : Ws w) {l : Elems} (hl : l.Valid) {r r' : List Char}
    (h : w ++ ']' :: r = l.text ++ r') : False := by
  obtain ⟨c, u, e, -, hc, -⟩ := elems_skip l hl r'
  rw [← h, skip_char hw (by decide)] at e
  exact hc (List.cons.inj e).1.symm

theorem object_members {w : List Char} (hw : Ws w) {l : Members} (hl : l.Valid) {r r' : List Char}
    (h : w ++ '}' :: r = l.text ++ r') : False := by
  obtain ⟨u, e⟩ := members_skip l hl r'
  rw [← h, skip_char hw (by decide)] at e
  exact absurd (List.cons.inj e).1 (by decide)

mutual
theorem tree_inj (t t' : Tree) (h : t.Valid) (h' : t'.Valid) {r r' : List Char} (hr : Stop r) (hr' : Stop r')
    (e : t.text ++ r = t'.text ++ r') : t = t' ∧ r = r' := by
  have hk := kind_eq h h' e
  match t, h, e, hk with
  | .null, _, e, hk =>
    cases t' <;> simp [kind] at hk
    exact ⟨rfl, List.append_cancel_left e⟩
  | .yes, _, e, hk =>
    cases t' <;> simp [kind] at hk
    exact ⟨rfl, List.append_cancel_left e⟩
  | .no, _, e, hk =>
    cases t' <;> simp [kind] at hk
    exact ⟨rfl, List.append_cancel_left e⟩
  | .num n, h, e, hk =>
    cases t' <;> simp [kind] at hk
    rw [Tree.Valid] at h; rw [Tree.Valid] at h'
    rw [Tree.text, Tree.text] at e
    obtain ⟨rfl, rfl⟩ := num_inj h h' hr hr' e
    exact ⟨rfl, rfl⟩
  | .str s, h, e, hk =>
    cases t' <;> simp [kind] at hk
    rw [Tree.Valid] at h; rw [Tree.Valid] at h'
    rw [Tree.text, Tree.text] at e
    obtain ⟨rfl, rfl⟩ := str_inj h h' e
    exact ⟨rfl, rfl⟩
  | .array w, h, e, hk =>
    cases t' <;> simp [kind] at hk
    · rw [Tree.Valid] at h; rw [Tree.Valid] at h'
      simp only [Tree.text, List.cons_append, List.append_assoc, List.nil_append, List.cons.injEq, true_and] at e
      obtain ⟨rfl, -, rfl⟩ := char_inj h h' (by decide) (by decide) e
      exact ⟨rfl, rfl⟩
    · rw [Tree.Valid] at h; rw [Tree.Valid] at h'
      simp only [Tree.text, List.cons_append, List.append_assoc, List.nil_append, List.cons.injEq, true_and] at e
      exact (array_elems h h' e).elim
  | .object w, h, e, hk =>
    cases t' <;> simp [kind] at hk
    · rw [Tree.Valid] at h; rw [Tree.Valid] at h'
      simp only [Tree.text, List.cons_append, List.append_assoc, List.nil_append, List.cons.injEq, true_and] at e
      obtain ⟨rfl, -, rfl⟩ := char_inj h h' (by decide) (by decide) e
      exact ⟨rfl, rfl⟩
    · rw [Tree.Valid] at h; rw [Tree.Valid] at h'
      simp only [Tree.text, List.cons_append, List.append_assoc, List.nil_append, List.cons.injEq, true_and] at e
      exact (object_members h h' e).elim
  | .arrayOf l, h, e, hk =>
    cases t' with
    | array w =>
      rw [Tree.Valid] at h; rw [Tree.Valid] at h'
      simp only [Tree.text, List.cons_append, List.append_assoc, List.nil_append, List.cons.injEq, true_and] at e
      exact (array_elems h' h e.symm).elim
    | arrayOf l' =>
      rw [Tree.Valid] at h; rw [Tree.Valid] at h'
      simp only [Tree.text, List.cons_append, List.append_assoc, List.nil_append, List.cons.injEq, true_and] at e
      obtain ⟨rfl, rfl⟩ := elems_inj l l' h h' e
      exact ⟨rfl, rfl⟩
    | _ => simp [kind] at hk
  | .objectOf l, h, e, hk =>
    cases t' with
    | object w =>
      rw [Tree.Valid] at h; rw [Tree.Valid] at h'
      simp only [Tree.text, List.cons_append, List.append_assoc, List.nil_append, List.cons.injEq, true_and] at e
      exact (object_members h' h e.symm).elim
    | objectOf l' =>
      rw [Tree.Valid] at h; rw [Tree.Valid] at h'
      simp only [Tree.text, List.cons_append, List.append_assoc, List.nil_append, List.cons.injEq, true_and] at e
      obtain ⟨rfl, rfl⟩ := members_inj l l' h h' e
      exact ⟨rfl, rfl⟩
    | _ => simp [kind] at hk
theorem elems_inj (l l' : Elems) (h : l.Valid) (h' : l'.Valid) {r r' : List Char}
    (e : l.text ++ ']' :: r = l'.text ++ ']' :: r') : l = l' ∧ r = r' := by
  match l, h, e with
  | .one pre t post, h, e =>
    cases l' with
    | one pre' t' post' =>
      rw [Elems.Valid] at h; rw [Elems.Valid] at h'
      simp only [Elems.text, List.append_assoc] at e
      obtain ⟨rfl, e1⟩ := skip_inj h.1 h'.1 h.2.1 h'.2.1 e
      obtain ⟨rfl, e2⟩ := tree_inj t t' h.2.1 h'.2.1 (stop_end h.2.2 (by simp) _) (stop_end h'.2.2 (by simp) _) e1
      obtain ⟨rfl, -, rfl⟩ := char_inj h.2.2 h'.2.2 (by decide) (by decide) e2
      exact ⟨rfl, rfl⟩
    | more pre' t' post' rest' =>
      rw [Elems.Valid] at h; rw [Elems.Valid] at h'
      simp only [Elems.text, List.append_assoc, List.cons_append] at e
      obtain ⟨rfl, e1⟩ := skip_inj h.1 h'.1 h.2.1 h'.2.1 e
      obtain ⟨rfl, e2⟩ := tree_inj t t' h.2.1 h'.2.1 (stop_end h.2.2 (by simp) _) (stop_end h'.2.2.1 (by simp) _) e1
      exact absurd (char_inj h.2.2 h'.2.2.1 (by decide) (by decide) e2).2.1 (by decide)
  | .more pre t post rest, h, e =>
    cases l' with
    | one pre' t' post' =>
      rw [Elems.Valid] at h; rw [Elems.Valid] at h'
      simp only [Elems.text, List.append_assoc, List.cons_append] at e
      obtain ⟨rfl, e1⟩ := skip_inj h.1 h'.1 h.2.1 h'.2.1 e
      obtain ⟨rfl, e2⟩ := tree_inj t t' h.2.1 h'.2.1 (stop_end h.2.2.1 (by simp) _) (stop_end h'.2.2 (by simp) _) e1
      exact absurd (char_inj h.2.2.1 h'.2.2 (by decide) (by decide) e2).2.1 (by decide)
    | more pre' t' post' rest' =>
      rw [Elems.Valid] at h; rw [Elems.Valid] at h'
      simp only [Elems.text, List.append_assoc, List.cons_append] at e
      obtain ⟨rfl, e1⟩ := skip_inj h.1 h'.1 h.2.1 h'.2.1 e
      obtain ⟨rfl, e2⟩ := tree_inj t t' h.2.1 h'.2.1 (stop_end h.2.2.1 (by simp) _) (stop_end h'.2.2.1 (by simp) _) e1
      obtain ⟨rfl, -, e3⟩ := char_inj h.2.2.1 h'.2.2.1 (by decide) (by decide) e2
      obtain ⟨rfl, rfl⟩ := elems_inj rest rest' h.2.2.2 h'.2.2.2 e3
      exact ⟨rfl, rfl⟩
theorem members_inj (l l' : Members) (h : l.Valid) (h' : l'.Valid) {r r' : List Char}
    (e : l.text ++ '}' :: r = l'.text ++ '}' :: r') : l = l' ∧ r = r' := by
  have key : ∀ {w v : List Char} {k k' : Str} {i i' : List Char}, Ws w → Ws v → k.Valid → k'.Valid →
      w ++ (Str.text k ++ i) = v ++ (Str.text k' ++ i') → w = v ∧ k = k' ∧ i = i' := by
    intro w v k k' i i' hw hv hk hk' e
    obtain ⟨h1, h2⟩ := ws_inj hw hv (noHead_cons.2 (by decide)) (noHead_cons.2 (by decide)) e
    exact ⟨h1, str_inj hk hk' h2⟩
  match l, h, e with
  | .one w k v pre t post, h, e =>
    cases l' with
    | one w' k' v' pre' t' post' =>
      rw [Members.Valid] at h; rw [Members.Valid] at h'
      obtain ⟨a1, a2, a3, a4, a5, a6⟩ := h
      obtain ⟨b1, b2, b3, b4, b5, b6⟩ := h'
      simp only [Members.text, List.append_assoc, List.cons_append] at e
      obtain ⟨rfl, rfl, e1⟩ := key a1 b1 a2 b2 e
      obtain ⟨rfl, -, e2⟩ := char_inj a3 b3 (by decide) (by decide) e1
      obtain ⟨rfl, e3⟩ := skip_inj a4 b4 a5 b5 e2
      obtain ⟨rfl, e4⟩ := tree_inj t t' a5 b5 (stop_end a6 (by simp) _) (stop_end b6 (by simp) _) e3
      obtain ⟨rfl, -, rfl⟩ := char_inj a6 b6 (by decide) (by decide) e4
      exact ⟨rfl, rfl⟩
    | more w' k' v' pre' t' post' rest' =>
      rw [Members.Valid] at h; rw [Members.Valid] at h'
      obtain ⟨a1, a2, a3, a4, a5, a6⟩ := h
      obtain ⟨b1, b2, b3, b4, b5, b6, b7⟩ := h'
      simp only [Members.text, List.append_assoc, List.cons_append] at e
      obtain ⟨rfl, rfl, e1⟩ := key a1 b1 a2 b2 e
      obtain ⟨rfl, -, e2⟩ := char_inj a3 b3 (by decide) (by decide) e1
      obtain ⟨rfl, e3⟩ := skip_inj a4 b4 a5 b5 e2
      obtain ⟨rfl, e4⟩ := tree_inj t t' a5 b5 (stop_end a6 (by simp) _) (stop_end b6 (by simp) _) e3
      exact absurd (char_inj a6 b6 (by decide) (by decide) e4).2.1 (by decide)
  | .more w k v pre t post rest, h, e =>
    cases l' with
    | one w' k' v' pre' t' post' =>
      rw [Members.Valid] at h; rw [Members.Valid] at h'
      obtain ⟨a1, a2, a3, a4, a5, a6, a7⟩ := h
      obtain ⟨b1, b2, b3, b4, b5, b6⟩ := h'
      simp only [Members.text, List.append_assoc, List.cons_append] at e
      obtain ⟨rfl, rfl, e1⟩ := key a1 b1 a2 b2 e
      obtain ⟨rfl, -, e2⟩ := char_inj a3 b3 (by decide) (by decide) e1
      obtain ⟨rfl, e3⟩ := skip_inj a4 b4 a5 b5 e2
      obtain ⟨rfl, e4⟩ := tree_inj t t' a5 b5 (stop_end a6 (by simp) _) (stop_end b6 (by simp) _) e3
      exact absurd (char_inj a6 b6 (by decide) (by decide) e4).2.1 (by decide)
    | more w' k' v' pre' t' post' rest' =>
      rw [Members.Valid] at h; rw [Members.Valid] at h'
      obtain ⟨a1, a2, a3, a4, a5, a6, a7⟩ := h
      obtain ⟨b1, b2, b3, b4, b5, b6, b7⟩ := h'
      simp only [Members.text, List.append_assoc, List.cons_append] at e
      obtain ⟨rfl, rfl, e1⟩ := key a1 b1 a2 b2 e
      obtain ⟨rfl, -, e2⟩ := char_inj a3 b3 (by decide) (by decide) e1
      obtain ⟨rfl, e3⟩ := skip_inj a4 b4 a5 b5 e2
      obtain ⟨rfl, e4⟩ := tree_inj t t' a5 b5 (stop_end a6 (by simp) _) (stop_end b6 (by simp) _) e3
      obtain ⟨rfl, -, e5⟩ := char_inj a6 b6 (by decide) (by decide) e4
      obtain ⟨rfl, rfl⟩ := members_inj rest rest' a7 b7 e5
      exact ⟨rfl, rfl⟩
end

end StepperPaths.ConfigText
