import Verif.Proof.JsonTokens

/-! Values of JSON that are not used. -/

namespace StepperPaths.ConfigText
open Svg StepperPaths.Spec.Svg StepperPaths.Spec.Json

theorem ws_append {w w' : List Char} (h : Ws w) (h' : Ws w') : Ws (w ++ w') := by
  intro c hc
  rcases List.mem_append.1 hc with hc | hc
  · exact h c hc
  · exact h' c hc

theorem digit_head (d : Fin 10) : isWs (digitChar d) = false ∧ digitChar d ≠ ']' ∧ digitChar d ≠ '}' ∧
    digitChar d ≠ 'n' ∧ digitChar d ≠ 't' ∧ digitChar d ≠ 'f' ∧ digitChar d ≠ '"' ∧ digitChar d ≠ '[' ∧
    digitChar d ≠ '{' := by revert d; decide

/-- The first character of a number. -/
theorem num_head (n : Num) (hn : NumValid n) (r : List Char) :
    ∃ c u, n.text ++ r = c :: u ∧ (c = '-' ∨ ∃ d, c = digitChar d) := by
  have hw := hn.whole
  unfold Num.text
  cases hσ : n.sign with
  | plus => exact absurd hσ hn.sign
  | minus => exact ⟨'-', _, rfl, .inl rfl⟩
  | none =>
    match hd : n.whole with
    | [] => exact absurd hd hw
    | a :: d => exact ⟨digitChar a, _, rfl, .inr ⟨a, rfl⟩⟩

/-- A value does not begin with white space or a closing bracket. -/
theorem tree_head (t : Tree) (h : t.Valid) (r : List Char) :
    ∃ c u, t.text ++ r = c :: u ∧ isWs c = false ∧ c ≠ ']' ∧ c ≠ '}' := by
  cases t with
  | num n =>
    rw [Tree.Valid] at h
    obtain ⟨c, u, e, hc⟩ := num_head n h r
    rw [Tree.text]
    refine ⟨c, u, e, ?_⟩
    rcases hc with rfl | ⟨d, rfl⟩
    · decide
    · exact ⟨(digit_head d).1, (digit_head d).2.1, (digit_head d).2.2.1⟩
  | null => exact ⟨'n', _, by rw [Tree.text]; rfl, by decide⟩
  | yes => exact ⟨'t', _, by rw [Tree.text]; rfl, by decide⟩
  | no => exact ⟨'f', _, by rw [Tree.text]; rfl, by decide⟩
  | str s => exact ⟨'"', _, by rw [Tree.text]; rfl, by decide⟩
  | array w => exact ⟨'[', _, by rw [Tree.text]; rfl, by decide⟩
  | arrayOf l => exact ⟨'[', _, by rw [Tree.text]; rfl, by decide⟩
  | object w => exact ⟨'{', _, by rw [Tree.text]; rfl, by decide⟩
  | objectOf l => exact ⟨'{', _, by rw [Tree.text]; rfl, by decide⟩

theorem skip_tree {w : List Char} (hw : Ws w) (t : Tree) (h : t.Valid) (r : List Char) :
    skipWs (w ++ (t.text ++ r)) = t.text ++ r := by
  refine skipWs_run hw ?_
  obtain ⟨c, u, e, hc, -⟩ := tree_head t h r
  rw [e]
  exact noHead_cons.2 hc

theorem skip_char {w : List Char} (hw : Ws w) {c : Char} (hc : isWs c = false) (r : List Char) :
    skipWs (w ++ c :: r) = c :: r :=
  skipWs_run hw (noHead_cons.2 hc)

theorem stop_end {w : List Char} (hw : Ws w) {c : Char} (hc : c = ',' ∨ c = ']' ∨ c = '}') (r : List Char) :
    Stop (w ++ c :: r) := by
  refine ws_stop hw (noHead_cons.2 ?_)
  rcases hc with rfl | rfl | rfl <;> decide

theorem word_text (w r : List Char) : word w (w ++ r) = some r := by
  simp [word]

theorem of_word {w i r : List Char} (h : word w i = some r) : i = w ++ r := by
  unfold word at h
  split at h
  · rename_i hp
    obtain ⟨t, rfl⟩ := List.isPrefixOf_iff_prefix.1 hp
    simp only [List.drop_left, Option.some.injEq] at h
    rw [h]
  · simp at h

theorem str_text (s : Str) (r : List Char) : s.text ++ r = '"' :: (s.flatMap Mark.text ++ '"' :: r) := by
  simp [Str.text]

theorem value_num (n : ℕ) {i : List Char} {c : Char} {u : List Char} (e : i = c :: u)
    (hc : c = '-' ∨ ∃ d, c = digitChar d) : value (n + 1) i = (number i).map Prod.fst := by
  subst e
  have key : c ≠ 'n' ∧ c ≠ 't' ∧ c ≠ 'f' ∧ c ≠ '"' ∧ c ≠ '[' ∧ c ≠ '{' := by
    rcases hc with rfl | ⟨d, rfl⟩
    · decide
    · exact (digit_head d).2.2.2
  obtain ⟨h1, h2, h3, h4, h5, h6⟩ := key
  rw [value]
  all_goals simp_all

/-- The first characters of elements, after white space. -/
theorem elems_skip (l : Elems) (h : l.Valid) (r : List Char) :
    ∃ c u, skipWs (l.text ++ r) = c :: u ∧ isWs c = false ∧ c ≠ ']' ∧ c ≠ '}' := by
  cases l with
  | one pre t post =>
    rw [Elems.Valid] at h
    obtain ⟨c, u, e, hc⟩ := tree_head t h.2.1 (post ++ r)
    refine ⟨c, u, ?_, hc⟩
    rw [Elems.text, List.append_assoc, List.append_assoc, skip_tree h.1 t h.2.1, e]
  | more pre t post rest =>
    rw [Elems.Valid] at h
    obtain ⟨c, u, e, hc⟩ := tree_head t h.2.1 (post ++ (',' :: rest.text ++ r))
    refine ⟨c, u, ?_, hc⟩
    rw [Elems.text, List.append_assoc, List.append_assoc, List.append_assoc, skip_tree h.1 t h.2.1, e]

theorem members_skip (l : Members) (h : l.Valid) (r : List Char) :
    ∃ u, skipWs (l.text ++ r) = '"' :: u := by
  cases l with
  | one w k w' pre t post =>
    rw [Members.Valid] at h
    rw [Members.text, List.append_assoc, List.append_assoc, List.append_assoc, str_text, skip_char h.1 (by decide)]
    exact ⟨_, rfl⟩
  | more w k w' pre t post rest =>
    rw [Members.Valid] at h
    rw [Members.text, List.append_assoc, List.append_assoc, List.append_assoc, str_text, skip_char h.1 (by decide)]
    exact ⟨_, rfl⟩

mutual
theorem value_text (t : Tree) (h : t.Valid) (n : ℕ) (hn : t.text.length ≤ n) {r : List Char} (hr : Stop r) :
    value n (t.text ++ r) = some r := by
  obtain ⟨c, u, e, -⟩ := tree_head t h []
  obtain ⟨n, rfl⟩ : ∃ m, n = m + 1 := by
    rw [List.append_nil] at e
    rw [e, List.length_cons] at hn
    exact ⟨n - 1, by omega⟩
  match t, h, hn with
  | .null, _, _ =>
    have : Tree.text .null ++ r = 'n' :: ("ull".toList ++ r) := by rw [Tree.text]; rfl
    rw [this, value]
    exact word_text _ r
  | .yes, _, _ =>
    have : Tree.text .yes ++ r = 't' :: ("rue".toList ++ r) := by rw [Tree.text]; rfl
    rw [this, value]
    exact word_text _ r
  | .no, _, _ =>
    have : Tree.text .no ++ r = 'f' :: ("alse".toList ++ r) := by rw [Tree.text]; rfl
    rw [this, value]
    exact word_text _ r
  | .num m, h, _ =>
    rw [Tree.Valid] at h
    obtain ⟨c, u, e, hc⟩ := num_head m h r
    rw [Tree.text, value_num n e hc, number_text m h hr]
    rfl
  | .str s, h, _ =>
    rw [Tree.Valid] at h
    rw [Tree.text, str_text, value]
    rw [pieces_text s h r]
    rfl
  | .array w, h, _ =>
    rw [Tree.Valid] at h
    have : Tree.text (.array w) ++ r = '[' :: (w ++ ']' :: r) := by rw [Tree.text]; simp
    rw [this, value]
    rw [skip_char h (by decide)]
    rfl
  | .object w, h, _ =>
    rw [Tree.Valid] at h
    have : Tree.text (.object w) ++ r = '{' :: (w ++ '}' :: r) := by rw [Tree.text]; simp
    rw [this, value]
    rw [skip_char h (by decide)]
    rfl
  | .arrayOf l, h, hn =>
    rw [Tree.Valid] at h
    rw [Tree.text] at hn
    have : Tree.text (.arrayOf l) ++ r = '[' :: (l.text ++ ']' :: r) := by rw [Tree.text]; simp
    rw [this, value]
    have key := elems_text l h n (by simp at hn; omega) (r := r)
    obtain ⟨c, u, e, -, hc, -⟩ := elems_skip l h (']' :: r)
    split
    · rename_i r' heq
      rw [heq] at e
      exact absurd (List.cons.inj e).1.symm hc
    · exact key
  | .objectOf l, h, hn =>
    rw [Tree.Valid] at h
    rw [Tree.text] at hn
    have : Tree.text (.objectOf l) ++ r = '{' :: (l.text ++ '}' :: r) := by rw [Tree.text]; simp
    rw [this, value]
    have key := members_text l h n (by simp at hn; omega) (r := r)
    obtain ⟨u, e⟩ := members_skip l h ('}' :: r)
    split
    · rename_i r' heq
      rw [heq] at e
      exact absurd (List.cons.inj e).1 (by decide)
    · exact key
theorem elems_text (l : Elems) (h : l.Valid) (n : ℕ) (hn : l.text.length < n) {r : List Char} :
    elems n (skipWs (l.text ++ ']' :: r)) = some r := by
  obtain ⟨n, rfl⟩ : ∃ m, n = m + 1 := ⟨n - 1, by omega⟩
  match l, h, hn with
  | .one pre t post, h, hn =>
    rw [Elems.Valid] at h
    rw [Elems.text] at hn
    simp only [List.length_append] at hn
    rw [Elems.text, List.append_assoc, List.append_assoc, skip_tree h.1 t h.2.1, elems,
      value_text t h.2.1 n (by omega) (stop_end h.2.2 (.inr (.inl rfl)) r), Option.bind_some,
      skip_char h.2.2 (by decide)]
    rfl
  | .more pre t post rest, h, hn =>
    rw [Elems.Valid] at h
    rw [Elems.text] at hn
    simp only [List.length_append, List.length_cons] at hn
    have key := elems_text rest h.2.2.2 n (by omega) (r := r)
    rw [Elems.text, List.append_assoc, List.append_assoc, List.append_assoc, skip_tree h.1 t h.2.1, elems]
    rw [List.cons_append, value_text t h.2.1 n (by omega) (stop_end h.2.2.1 (.inl rfl) _), Option.bind_some,
      skip_char h.2.2.1 (by decide)]
    exact key
theorem members_text (l : Members) (h : l.Valid) (n : ℕ) (hn : l.text.length < n) {r : List Char} :
    members n (skipWs (l.text ++ '}' :: r)) = some r := by
  obtain ⟨n, rfl⟩ : ∃ m, n = m + 1 := ⟨n - 1, by omega⟩
  match l, h, hn with
  | .one w k w' pre t post, h, hn =>
    rw [Members.Valid] at h
    obtain ⟨h1, h2, h3, h4, h5, h6⟩ := h
    rw [Members.text] at hn
    simp only [List.length_append, List.length_cons] at hn
    rw [Members.text, List.append_assoc, List.append_assoc, List.append_assoc, str_text, skip_char h1 (by decide),
      members]
    simp only
    rw [pieces_text k h2, Option.bind_some]
    simp only
    rw [List.cons_append, skip_char h3 (by decide)]
    simp only
    rw [List.append_assoc, List.append_assoc, skip_tree h4 t h5,
      value_text t h5 n (by omega) (stop_end h6 (.inr (.inr rfl)) r), Option.bind_some,
      skip_char h6 (by decide)]
    rfl
  | .more w k w' pre t post rest, h, hn =>
    rw [Members.Valid] at h
    obtain ⟨h1, h2, h3, h4, h5, h6, h7⟩ := h
    rw [Members.text] at hn
    simp only [List.length_append, List.length_cons] at hn
    have key := members_text rest h7 n (by omega) (r := r)
    rw [Members.text, List.append_assoc, List.append_assoc, List.append_assoc, str_text, skip_char h1 (by decide),
      members]
    simp only
    rw [pieces_text k h2, Option.bind_some]
    simp only
    rw [List.cons_append, skip_char h3 (by decide)]
    simp only
    rw [List.append_assoc, List.append_assoc, List.append_assoc, skip_tree h4 t h5, List.cons_append,
      value_text t h5 n (by omega) (stop_end h6 (.inl rfl) _), Option.bind_some, skip_char h6 (by decide)]
    exact key
end

/-! ### What is read is a value -/

theorem elems_pre {w : List Char} (hw : Ws w) (l : Elems) (h : l.Valid) :
    ∃ l' : Elems, l'.Valid ∧ l'.text = w ++ l.text ∧ l'.list = l.list := by
  cases l with
  | one pre t post =>
    rw [Elems.Valid] at h
    refine ⟨.one (w ++ pre) t post, ?_, ?_, rfl⟩
    · rw [Elems.Valid]; exact ⟨ws_append hw h.1, h.2⟩
    · simp [Elems.text]
  | more pre t post rest =>
    rw [Elems.Valid] at h
    refine ⟨.more (w ++ pre) t post rest, ?_, ?_, rfl⟩
    · rw [Elems.Valid]; exact ⟨ws_append hw h.1, h.2⟩
    · simp [Elems.text]

theorem members_pre {w : List Char} (hw : Ws w) (l : Members) (h : l.Valid) :
    ∃ l' : Members, l'.Valid ∧ l'.text = w ++ l.text ∧ l'.list = l.list := by
  cases l with
  | one v k w' pre t post =>
    rw [Members.Valid] at h
    refine ⟨.one (w ++ v) k w' pre t post, ?_, ?_, rfl⟩
    · rw [Members.Valid]; exact ⟨ws_append hw h.1, h.2⟩
    · simp [Members.text]
  | more v k w' pre t post rest =>
    rw [Members.Valid] at h
    refine ⟨.more (w ++ v) k w' pre t post rest, ?_, ?_, rfl⟩
    · rw [Members.Valid]; exact ⟨ws_append hw h.1, h.2⟩
    · simp [Members.text]

theorem of_value (n : ℕ) :
    (∀ i r, value n i = some r → ∃ t : Tree, t.Valid ∧ i = t.text ++ r) ∧
    (∀ i r, elems n i = some r → ∃ l : Elems, l.Valid ∧ i = l.text ++ ']' :: r) ∧
    (∀ i r, members n i = some r → ∃ l : Members, l.Valid ∧ i = l.text ++ '}' :: r) := by
  induction n with
  | zero => simp [value, elems, members]
  | succ n ih =>
    obtain ⟨ih1, ih2, ih3⟩ := ih
    refine ⟨?_, ?_, ?_⟩
    · intro i r h
      rw [value.eq_def] at h
      simp only at h
      split at h
      · exact ⟨.null, by simp [Tree.Valid], by rw [of_word h, Tree.text]; rfl⟩
      · exact ⟨.yes, by simp [Tree.Valid], by rw [of_word h, Tree.text]; rfl⟩
      · exact ⟨.no, by simp [Tree.Valid], by rw [of_word h, Tree.text]; rfl⟩
      · obtain ⟨⟨r', l⟩, h1, rfl⟩ := Option.map_eq_some_iff.1 h
        obtain ⟨s, hs, rfl, -⟩ := of_pieces _ _ _ h1
        exact ⟨.str s, by rw [Tree.Valid]; exact hs, by rw [Tree.text, str_text]⟩
      · rename_i r0
        obtain ⟨w, hw, e⟩ := of_skipWs r0
        split at h
        · rename_i r1 heq
          cases h
          rw [heq] at e
          subst e
          exact ⟨.array w, by rw [Tree.Valid]; exact hw, by rw [Tree.text]; simp⟩
        · obtain ⟨l, hl, e'⟩ := ih2 _ _ h
          obtain ⟨l', hl', e'', -⟩ := elems_pre hw l hl
          refine ⟨.arrayOf l', by rw [Tree.Valid]; exact hl', ?_⟩
          rw [Tree.text, e'', e, e']
          simp
      · rename_i r0
        obtain ⟨w, hw, e⟩ := of_skipWs r0
        split at h
        · rename_i r1 heq
          cases h
          rw [heq] at e
          subst e
          exact ⟨.object w, by rw [Tree.Valid]; exact hw, by rw [Tree.text]; simp⟩
        · obtain ⟨l, hl, e'⟩ := ih3 _ _ h
          obtain ⟨l', hl', e'', -⟩ := members_pre hw l hl
          refine ⟨.objectOf l', by rw [Tree.Valid]; exact hl', ?_⟩
          rw [Tree.text, e'', e, e']
          simp
      · obtain ⟨⟨r', l⟩, h1, rfl⟩ := Option.map_eq_some_iff.1 h
        obtain ⟨m, hm, rfl, -⟩ := of_number h1
        exact ⟨.num m, by rw [Tree.Valid]; exact hm, by rw [Tree.text]⟩
    · intro i r h
      rw [elems] at h
      obtain ⟨r0, h1, h2⟩ := Option.bind_eq_some_iff.1 h
      obtain ⟨t, ht, rfl⟩ := ih1 _ _ h1
      obtain ⟨w, hw, e⟩ := of_skipWs r0
      split at h2
      · rename_i r1 heq
        obtain ⟨l, hl, e'⟩ := ih2 _ _ h2
        obtain ⟨w', hw', e3⟩ := of_skipWs r1
        obtain ⟨l', hl', e'', -⟩ := elems_pre hw' l hl
        refine ⟨.more [] t w l', by rw [Elems.Valid]; exact ⟨Ws.nil, ht, hw, hl'⟩, ?_⟩
        rw [Elems.text, e'', e, heq, e3, e']
        simp
      · rename_i r1 heq
        cases h2
        refine ⟨.one [] t w, by rw [Elems.Valid]; exact ⟨Ws.nil, ht, hw⟩, ?_⟩
        rw [Elems.text, e, heq]
        simp
      · simp at h2
    · intro i r h
      rw [members.eq_def] at h
      simp only at h
      split at h
      · obtain ⟨⟨r0, k⟩, h1, h2⟩ := Option.bind_eq_some_iff.1 h
        obtain ⟨s, hs, rfl, -⟩ := of_pieces _ _ _ h1
        simp only at h2
        obtain ⟨w, hw, e⟩ := of_skipWs r0
        split at h2
        · rename_i r1 heq
          obtain ⟨r2, h3, h4⟩ := Option.bind_eq_some_iff.1 h2
          obtain ⟨t, ht, e1⟩ := ih1 _ _ h3
          obtain ⟨w1, hw1, e2⟩ := of_skipWs r1
          obtain ⟨w2, hw2, e3⟩ := of_skipWs r2
          split at h4
          · rename_i r3 heq'
            obtain ⟨l, hl, e'⟩ := ih3 _ _ h4
            obtain ⟨w', hw', e4⟩ := of_skipWs r3
            obtain ⟨l', hl', e'', -⟩ := members_pre hw' l hl
            refine ⟨.more [] s w w1 t w2 l', by rw [Members.Valid]; exact ⟨Ws.nil, hs, hw, hw1, ht, hw2, hl'⟩, ?_⟩
            rw [Members.text, e'', e, heq, e2, e1, e3, heq', e4, e']
            simp [Str.text]
          · rename_i r3 heq'
            cases h4
            refine ⟨.one [] s w w1 t w2, by rw [Members.Valid]; exact ⟨Ws.nil, hs, hw, hw1, ht, hw2⟩, ?_⟩
            rw [Members.text, e, heq, e2, e1, e3, heq']
            simp [Str.text]
          · simp at h4
        · simp at h2
      · simp at h

end StepperPaths.ConfigText
