import Verif.Proof.JsonValues

/-! Structures with named fields. -/

namespace StepperPaths.ConfigText
open Svg StepperPaths.Spec.Svg StepperPaths.Spec.Json

/-- What a value of a field means. -/
abbrev Means (α : Type) := String × (α → Tree → Prop)

/-- The reader reads the values with the given meaning, up to the given length. -/
structure Good {α : Type} (N : ℕ) (p : Text → Option (Text × α)) (P : α → Tree → Prop) : Prop where
  sound : ∀ i r v, p i = some (r, v) → ∃ t : Tree, t.Valid ∧ i = t.text ++ r ∧ P v t
  complete : ∀ (t : Tree) (r : List Char) (v : α), t.Valid → P v t → t.text.length ≤ N → Stop r →
    p (t.text ++ r) = some (r, v)

def FieldOk {α : Type} (N : ℕ) (f : Field α) (s : Means α) : Prop := f.1 = s.1.toList ∧ Good N f.2 s.2

/-- How the fields are filled in from the members of an object. -/
inductive Fill {α : Type} (sp : List (Means α)) :
    List (Option α) → List (Str × Tree) → List (Option α) → Prop
  | nil (s : List (Option α)) : Fill sp s [] s
  | skip {k : Str} {t : Tree} {l : List (Str × Tree)} {s s' : List (Option α)} {key : List Char} (hk : Says k key)
      (hn : ∀ p ∈ sp, p.1.toList ≠ key) (h : Fill sp s l s') : Fill sp s ((k, t) :: l) s'
  | put {k : Str} {t : Tree} {l : List (Str × Tree)} {s s' : List (Option α)} {j : ℕ} {p : Means α} {v : α}
      (hk : Says k p.1.toList) (hp : sp[j]? = some p) (hs : s[j]? = some none) (hv : p.2 v t)
      (h : Fill sp (s.set j (some v)) l s') : Fill sp s ((k, t) :: l) s'

section
variable {α : Type} {N : ℕ} {fs : List (Field α)} {sp : List (Means α)}

theorem ok_get (h : List.Forall₂ (FieldOk N) fs sp) {j : ℕ} {f : Field α} (hf : fs[j]? = some f) :
    ∃ p, sp[j]? = some p ∧ FieldOk N f p := by
  induction h generalizing j with
  | nil => simp at hf
  | cons h _ ih =>
    cases j with
    | zero => simp only [List.getElem?_cons_zero, Option.some.injEq] at hf; subst hf; exact ⟨_, rfl, h⟩
    | succ j => exact ih (by simpa using hf)

theorem ok_get' (h : List.Forall₂ (FieldOk N) fs sp) {j : ℕ} {p : Means α} (hf : sp[j]? = some p) :
    ∃ f, fs[j]? = some f ∧ FieldOk N f p := by
  induction h generalizing j with
  | nil => simp at hf
  | cons h _ ih =>
    cases j with
    | zero => simp only [List.getElem?_cons_zero, Option.some.injEq] at hf; subst hf; exact ⟨_, rfl, h⟩
    | succ j => exact ih (by simpa using hf)

theorem find_spec (fs : List (Field α)) (key : List Char) :
    (∃ f, fs[fs.findIdx fun f => f.1 = key]? = some f ∧ f.1 = key) ∨
    (fs[fs.findIdx fun f => f.1 = key]? = none ∧ ∀ f ∈ fs, f.1 ≠ key) := by
  by_cases h : fs.findIdx (fun f => f.1 = key) < fs.length
  · refine .inl ⟨_, List.getElem?_eq_getElem h, ?_⟩
    have := List.findIdx_getElem (w := h)
    simpa using this
  · refine .inr ⟨List.getElem?_eq_none (by omega), fun f hf hk => h ?_⟩
    exact List.findIdx_lt_length_of_exists ⟨f, hf, by simpa using hk⟩

theorem name_unique (hn : (sp.map Prod.fst).Nodup) {i j : ℕ} {p q : Means α} (hp : sp[i]? = some p)
    (hq : sp[j]? = some q) (h : p.1 = q.1) : i = j := by
  obtain ⟨hi, rfl⟩ := List.getElem?_eq_some_iff.1 hp
  obtain ⟨hj, rfl⟩ := List.getElem?_eq_some_iff.1 hq
  refine (List.Nodup.getElem_inj_iff hn (hi := by simpa using hi) (hj := by simpa using hj)).1 ?_
  simpa using h

theorem fields_sound (h : List.Forall₂ (FieldOk N) fs sp) : ∀ (n : ℕ) (i r : List Char) (s s' : List (Option α)),
    fields fs n i s = some (r, s') →
    ∃ l : Members, l.Valid ∧ i = l.text ++ '}' :: r ∧ Fill sp s l.list s' := by
  intro n
  induction n with
  | zero => intro i r s s' hf; simp [fields] at hf
  | succ n ih =>
    intro i r s s' hf
    rw [fields.eq_def] at hf
    simp only at hf
    split at hf
    · obtain ⟨⟨r0, k⟩, h1, h2⟩ := Option.bind_eq_some_iff.1 hf
      obtain ⟨m, hm, rfl, rfl⟩ := of_pieces _ _ _ h1
      obtain ⟨key, h3, h4⟩ := Option.bind_eq_some_iff.1 h2
      have hkey := decode_iff.1 h3
      obtain ⟨w, hw, e⟩ := of_skipWs r0
      simp only at h4
      split at h4
      · rename_i r1 heq
        obtain ⟨⟨r2, s2⟩, h5, h6⟩ := Option.bind_eq_some_iff.1 h4
        obtain ⟨w1, hw1, e1⟩ := of_skipWs r1
        obtain ⟨w2, hw2, e2⟩ := of_skipWs r2
        have mid : ∃ t : Tree, t.Valid ∧ skipWs r1 = t.text ++ r2 ∧
            ∀ l, Fill sp s2 l s' → Fill sp s ((m, t) :: l) s' := by
          unfold field at h5
          simp only at h5
          rcases find_spec fs key with ⟨f, g1, g2⟩ | ⟨g1, g2⟩
          · rw [g1] at h5
            simp only at h5
            split at h5
            · rename_i g3
              obtain ⟨⟨r3, v⟩, h7, h8⟩ := Option.map_eq_some_iff.1 h5
              simp only [Prod.mk.injEq] at h8
              obtain ⟨rfl, rfl⟩ := h8
              obtain ⟨p, hp, hok⟩ := ok_get h g1
              obtain ⟨t, ht, et, hv⟩ := hok.2.sound _ _ _ h7
              refine ⟨t, ht, et, fun l hl => .put ?_ hp g3 hv hl⟩
              rw [← hok.1, g2]
              exact hkey
            · simp at h5
          · rw [g1] at h5
            simp only at h5
            obtain ⟨r3, h7, h8⟩ := Option.map_eq_some_iff.1 h5
            simp only [Prod.mk.injEq] at h8
            obtain ⟨rfl, rfl⟩ := h8
            obtain ⟨t, ht, et⟩ := (of_value n).1 _ _ h7
            refine ⟨t, ht, et, fun l hl => .skip hkey ?_ hl⟩
            intro p hp
            obtain ⟨j, hj⟩ := List.mem_iff_getElem?.1 hp
            obtain ⟨f, hf, hok⟩ := ok_get' h hj
            rw [← hok.1]
            exact g2 f (List.mem_iff_getElem?.2 ⟨j, hf⟩)
        obtain ⟨t, ht, et, hfill⟩ := mid
        simp only at h6
        split at h6
        · rename_i r3 heq'
          obtain ⟨l, hl, e3, hl'⟩ := ih _ _ _ _ h6
          obtain ⟨w', hw', e4⟩ := of_skipWs r3
          obtain ⟨l', hv', e5, e6⟩ := members_pre hw' l hl
          refine ⟨.more [] m w w1 t w2 l', by rw [Members.Valid]; exact ⟨Ws.nil, hm, hw, hw1, ht, hw2, hv'⟩, ?_, ?_⟩
          · rw [Members.text, e5, e, heq, e1, et, e2, heq', e4, e3]
            simp [Str.text]
          · rw [Members.list, e6]
            exact hfill _ hl'
        · rename_i r3 heq'
          simp only [Option.some.injEq, Prod.mk.injEq] at h6
          obtain ⟨rfl, rfl⟩ := h6
          refine ⟨.one [] m w w1 t w2, by rw [Members.Valid]; exact ⟨Ws.nil, hm, hw, hw1, ht, hw2⟩, ?_, ?_⟩
          · rw [Members.text, e, heq, e1, et, e2, heq']
            simp [Str.text]
          · exact hfill _ (.nil _)
        · simp at h6
      · simp at h4
    · simp at hf

/-- The step over one member. -/
theorem field_step (h : List.Forall₂ (FieldOk N) fs sp) (hn : (sp.map Prod.fst).Nodup) {n : ℕ} {k : Str} {t : Tree}
    {l : List (Str × Tree)} {s s' : List (Option α)} (hf : Fill sp s ((k, t) :: l) s') (ht : t.Valid)
    (hN : t.text.length ≤ N) (hnn : t.text.length ≤ n) {r : List Char} (hr : Stop r) :
    ∃ key s2, decode (k.map toPiece) = some key ∧
      field fs n key (t.text ++ r) s = some (r, s2) ∧ Fill sp s2 l s' := by
  cases hf with
  | @skip _ _ _ _ _ key hk hx hl =>
    refine ⟨key, s, decode_iff.2 hk, ?_, hl⟩
    unfold field
    simp only
    rcases find_spec fs key with ⟨f, g1, g2⟩ | ⟨g1, g2⟩
    · exfalso
      obtain ⟨p, hp, hok⟩ := ok_get h g1
      refine hx p (List.mem_iff_getElem?.2 ⟨_, hp⟩) ?_
      rw [← hok.1, g2]
    · rw [g1]
      simp only
      rw [value_text t ht n hnn hr]
      rfl
  | @put _ _ _ _ _ j p v hk hp hs hv hl =>
    refine ⟨p.1.toList, s.set j (some v), decode_iff.2 hk, ?_, hl⟩
    unfold field
    simp only
    rcases find_spec fs p.1.toList with ⟨f, g1, g2⟩ | ⟨g1, g2⟩
    · obtain ⟨q, hq, hok⟩ := ok_get h g1
      have : fs.findIdx (fun f => f.1 = p.1.toList) = j := by
        refine name_unique hn hq hp (String.toList_inj.1 ?_)
        rw [← hok.1, g2]
      rw [this] at g1 hq ⊢
      rw [hq] at hp
      cases hp
      rw [g1]
      simp only
      rw [hs]
      simp only
      rw [hok.2.complete t r v ht hv hN hr]
      rfl
    · exfalso
      obtain ⟨f, hf, hok⟩ := ok_get' h hp
      exact g2 f (List.mem_iff_getElem?.2 ⟨j, hf⟩) hok.1

theorem fields_complete (h : List.Forall₂ (FieldOk N) fs sp) (hn : (sp.map Prod.fst).Nodup) :
    ∀ (l : Members) (n : ℕ) (r : List Char) (s s' : List (Option α)), l.Valid → l.text.length < n →
    l.text.length ≤ N → Fill sp s l.list s' → fields fs n (skipWs (l.text ++ '}' :: r)) s = some (r, s') := by
  intro l
  induction l using Members.list.induct with
  | case1 w k w' pre t post =>
    intro n r s s' hv hln hlN hf
    obtain ⟨n, rfl⟩ : ∃ m, n = m + 1 := ⟨n - 1, by omega⟩
    rw [Members.Valid] at hv
    obtain ⟨h1, h2, h3, h4, h5, h6⟩ := hv
    rw [Members.text] at hln hlN
    simp only [List.length_append, List.length_cons] at hln hlN
    obtain ⟨key, s2, hk, hstep, hl⟩ := field_step h hn hf h5 (by omega) (n := n) (by omega)
      (stop_end h6 (.inr (.inr rfl)) r)
    cases hl
    rw [Members.text, List.append_assoc, List.append_assoc, List.append_assoc, str_text, skip_char h1 (by decide),
      fields]
    rw [pieces_text k h2, Option.bind_some]
    simp only
    rw [hk, Option.bind_some, List.cons_append, skip_char h3 (by decide)]
    simp only
    rw [List.append_assoc, List.append_assoc, skip_tree h4 t h5, hstep, Option.bind_some]
    simp only
    rw [skip_char h6 (by decide)]
    rfl
  | case2 w k w' pre t post rest ih =>
    intro n r s s' hv hln hlN hf
    obtain ⟨n, rfl⟩ : ∃ m, n = m + 1 := ⟨n - 1, by omega⟩
    rw [Members.Valid] at hv
    obtain ⟨h1, h2, h3, h4, h5, h6, h7⟩ := hv
    rw [Members.text] at hln hlN
    simp only [List.length_append, List.length_cons] at hln hlN
    obtain ⟨key, s2, hk, hstep, hl⟩ := field_step h hn hf h5 (by omega) (n := n) (by omega)
      (stop_end h6 (.inl rfl) (rest.text ++ '}' :: r))
    rw [Members.text, List.append_assoc, List.append_assoc, List.append_assoc, str_text, skip_char h1 (by decide),
      fields]
    rw [pieces_text k h2, Option.bind_some]
    simp only
    rw [hk, Option.bind_some, List.cons_append, skip_char h3 (by decide)]
    simp only
    rw [List.append_assoc, List.append_assoc, List.append_assoc, List.cons_append, skip_tree h4 t h5, hstep,
      Option.bind_some]
    simp only
    rw [skip_char h6 (by decide)]
    exact ih n r s2 s' h7 (by omega) (by omega) hl

/-! ### Members and fields -/

/-- The member with the given name and meaning occurs once. -/
def Once (l : List (Str × Tree)) (name : String) (Q : Tree → Prop) : Prop :=
  ∃ before m after, l = before ++ m :: after ∧ Says m.1 name.toList ∧ Q m.2 ∧
    ∀ o ∈ before ++ after, ¬ Says o.1 name.toList

theorem fill_sound (hn : (sp.map Prod.fst).Nodup) {s s' : List (Option α)} {l : List (Str × Tree)} (h : Fill sp s l s') :
    s'.length = s.length ∧ (∀ m ∈ l, ∃ key, Says m.1 key) ∧ ∀ (j : ℕ) (p : Means α), sp[j]? = some p →
      (∀ v, s[j]? = some (some v) → s'[j]? = some (some v) ∧ ∀ m ∈ l, ¬ Says m.1 p.1.toList) ∧
      (s[j]? = some none → ∀ v, s'[j]? = some (some v) → Once l p.1 (p.2 v)) := by
  induction h with
  | nil s =>
    refine ⟨rfl, by simp, fun j p hp => ⟨fun v hv => ⟨hv, by simp⟩, fun h v hv => ?_⟩⟩
    rw [h] at hv
    simp at hv
  | @skip k t l s s' key hk hx h ih =>
    obtain ⟨ih1, ih2, ih3⟩ := ih
    refine ⟨ih1, by simpa using ⟨⟨key, hk⟩, fun a b hab => ih2 (a, b) hab⟩, fun j p hp => ?_⟩
    have hne : ¬ Says k p.1.toList := fun h' => hx p (List.mem_iff_getElem?.2 ⟨j, hp⟩) (says_unique h' hk)
    obtain ⟨a, b⟩ := ih3 j p hp
    refine ⟨fun v hv => ⟨(a v hv).1, ?_⟩, fun hs v hv => ?_⟩
    · intro m hm
      rcases List.mem_cons.1 hm with rfl | hm
      · exact hne
      · exact (a v hv).2 m hm
    · obtain ⟨before, m, after, rfl, h1, h2, h3⟩ := b hs v hv
      refine ⟨(k, t) :: before, m, after, rfl, h1, h2, ?_⟩
      intro o ho
      rcases List.mem_cons.1 ho with rfl | ho
      · exact hne
      · exact h3 o ho
  | @put k t l s s' j0 q v0 hk hq hs hv h ih =>
    obtain ⟨ih1, ih2, ih3⟩ := ih
    rw [List.length_set] at ih1
    refine ⟨ih1, by simpa using ⟨⟨_, hk⟩, fun a b hab => ih2 (a, b) hab⟩, fun j p hp => ?_⟩
    obtain ⟨a, b⟩ := ih3 j p hp
    have hj0 : j0 < s.length := (List.getElem?_eq_some_iff.1 hs).1
    by_cases hj : j = j0
    · subst hj
      rw [hq] at hp
      cases hp
      rw [List.getElem?_set_self hj0] at a b
      refine ⟨fun v h' => ?_, fun _ v h' => ?_⟩
      · rw [hs] at h'
        simp at h'
      · obtain ⟨a1, a2⟩ := a v0 rfl
        rw [a1] at h'
        simp only [Option.some.injEq] at h'
        subst h'
        exact ⟨[], (k, t), l, rfl, hk, hv, a2⟩
    · rw [List.getElem?_set_ne (Ne.symm hj)] at a b
      have hne : ¬ Says k p.1.toList := fun h' =>
        hj (name_unique hn hp hq (String.toList_inj.1 (says_unique h' hk)))
      refine ⟨fun v h' => ⟨(a v h').1, ?_⟩, fun hs v h' => ?_⟩
      · intro m hm
        rcases List.mem_cons.1 hm with rfl | hm
        · exact hne
        · exact (a v h').2 m hm
      · obtain ⟨before, m, after, rfl, h1, h2, h3⟩ := b hs v h'
        refine ⟨(k, t) :: before, m, after, rfl, h1, h2, ?_⟩
        intro o ho
        rcases List.mem_cons.1 ho with rfl | ho
        · exact hne
        · exact h3 o ho

theorem once_cons {k : Str} {t : Tree} {l : List (Str × Tree)} {name : String} {Q : Tree → Prop}
    (h : Once ((k, t) :: l) name Q) : (Says k name.toList ∧ Q t ∧ ∀ m ∈ l, ¬ Says m.1 name.toList) ∨
      (¬ Says k name.toList ∧ Once l name Q) := by
  obtain ⟨before, m, after, e, h1, h2, h3⟩ := h
  cases before with
  | nil =>
    simp only [List.nil_append, List.cons.injEq] at e
    obtain ⟨rfl, rfl⟩ := e
    exact .inl ⟨h1, h2, by simpa using h3⟩
  | cons o before =>
    simp only [List.cons_append, List.cons.injEq] at e
    obtain ⟨rfl, rfl⟩ := e
    exact .inr ⟨h3 (k, t) (by simp), before, m, after, rfl, h1, h2, fun o ho => h3 o (by simp at ho ⊢; tauto)⟩

theorem fill_complete {vs : List α} (hvs : vs.length = sp.length) : ∀ (l : List (Str × Tree)) (s : List (Option α)),
    s.length = sp.length → (∀ m ∈ l, ∃ key, Says m.1 key) →
    (∀ (j : ℕ) (p : Means α) (v : α), sp[j]? = some p → vs[j]? = some v →
      (s[j]? = some (some v) ∧ ∀ m ∈ l, ¬ Says m.1 p.1.toList) ∨ (s[j]? = some none ∧ Once l p.1 (p.2 v))) →
    (sp.map Prod.fst).Nodup → Fill sp s l (vs.map some) := by
  intro l
  induction l with
  | nil =>
    intro s hs _ h _
    have : s = vs.map some := by
      refine List.ext_getElem? fun j => ?_
      by_cases hj : j < sp.length
      · obtain ⟨p, hp⟩ : ∃ p, sp[j]? = some p := ⟨_, List.getElem?_eq_getElem hj⟩
        obtain ⟨v, hv⟩ : ∃ v, vs[j]? = some v := ⟨_, List.getElem?_eq_getElem (by omega)⟩
        rcases h j p v hp hv with h | ⟨-, before, m, after, e, -⟩
        · rw [h.1, List.getElem?_map, hv]; rfl
        · simp at e
      · rw [List.getElem?_eq_none (by omega), List.getElem?_eq_none (by simp; omega)]
    rw [this]
    exact .nil _
  | cons m l ih =>
    obtain ⟨k, t⟩ := m
    intro s hs hsay h hn
    obtain ⟨key, hk⟩ := hsay _ (List.mem_cons_self ..)
    have hsay' : ∀ m ∈ l, ∃ key, Says m.1 key := fun m hm => hsay m (List.mem_cons_of_mem _ hm)
    by_cases hx : ∃ (j : ℕ) (p : Means α), sp[j]? = some p ∧ p.1.toList = key
    · obtain ⟨j, p, hp, rfl⟩ := hx
      have hj : j < sp.length := (List.getElem?_eq_some_iff.1 hp).1
      obtain ⟨v, hv⟩ : ∃ v, vs[j]? = some v := ⟨_, List.getElem?_eq_getElem (by omega)⟩
      rcases h j p v hp hv with ⟨-, g⟩ | ⟨g1, g2⟩
      · exact absurd hk (g _ (List.mem_cons_self ..))
      rcases once_cons g2 with ⟨-, g3, g4⟩ | ⟨g3, -⟩
      · refine .put hk hp g1 g3 (ih _ (by simpa using hs) hsay' ?_ hn)
        intro j' p' v' hp' hv'
        by_cases hjj : j' = j
        · subst hjj
          rw [hp] at hp'; cases hp'
          rw [hv] at hv'; cases hv'
          exact .inl ⟨List.getElem?_set_self (by omega), g4⟩
        · rw [List.getElem?_set_ne (Ne.symm hjj)]
          rcases h j' p' v' hp' hv' with ⟨a, b⟩ | ⟨a, b⟩
          · exact .inl ⟨a, fun m hm => b m (List.mem_cons_of_mem _ hm)⟩
          · rcases once_cons b with ⟨c, -⟩ | ⟨-, c⟩
            · exact absurd (name_unique hn hp' hp (String.toList_inj.1 (says_unique c hk))) hjj
            · exact .inr ⟨a, c⟩
      · exact absurd hk g3
    · push Not at hx
      refine .skip hk ?_ (ih _ hs hsay' ?_ hn)
      · intro p hp
        obtain ⟨j, hj⟩ := List.mem_iff_getElem?.1 hp
        exact hx j p hj
      · intro j' p' v' hp' hv'
        rcases h j' p' v' hp' hv' with ⟨a, b⟩ | ⟨a, b⟩
        · exact .inl ⟨a, fun m hm => b m (List.mem_cons_of_mem _ hm)⟩
        · rcases once_cons b with ⟨c, -⟩ | ⟨-, c⟩
          · exact absurd (says_unique c hk) (hx j' p' hp')
          · exact .inr ⟨a, c⟩

theorem slots_all {s : List (Option α)} {vs : List α} : s.mapM id = some vs ↔ s = vs.map some := by
  induction s generalizing vs with
  | nil => cases vs <;> simp
  | cons a s ih =>
    cases vs with
    | nil => cases a <;> simp [Option.bind_eq_some_iff]
    | cons v vs =>
      cases a with
      | none => simp
      | some a =>
        simp only [List.mapM_cons, id, Option.bind_eq_bind, Option.bind_some, Option.bind_eq_some_iff, Option.pure_def,
          Option.some.injEq, List.cons.injEq, List.map_cons]
        constructor
        · rintro ⟨us, h, rfl, rfl⟩
          exact ⟨rfl, ih.1 h⟩
        · rintro ⟨rfl, h⟩
          exact ⟨vs, ih.2 h, rfl, rfl⟩

/-- The meaning of the fields with given values. -/
def meanings (sp : List (Means α)) (vs : List α) : List (String × (Tree → Prop)) :=
  List.zipWith (fun p v => (p.1, p.2 v)) sp vs

theorem mem_meanings {vs : List α} {f : String × (Tree → Prop)} :
    f ∈ meanings sp vs ↔ ∃ (j : ℕ) (p : Means α) (v : α), sp[j]? = some p ∧ vs[j]? = some v ∧ f = (p.1, p.2 v) := by
  rw [List.mem_iff_getElem?]
  constructor
  · rintro ⟨j, hj⟩
    rw [meanings, List.getElem?_zipWith_eq_some] at hj
    obtain ⟨p, v, hp, hv, rfl⟩ := hj
    exact ⟨j, p, v, hp, hv, rfl⟩
  · rintro ⟨j, p, v, hp, hv, rfl⟩
    refine ⟨j, ?_⟩
    rw [meanings, List.getElem?_zipWith_eq_some]
    exact ⟨p, v, hp, hv, rfl⟩

/-! ### Arrays -/

theorem entries_sound (h : List.Forall₂ (FieldOk N) fs sp) (hne : fs ≠ []) : ∀ (i r : List Char) (vs : List α),
    entries fs i = some (r, vs) → vs.length = sp.length ∧ ∃ l : Elems, l.Valid ∧ i = l.text ++ ']' :: r ∧
      List.Forall₂ (fun f x => f.2 x) (meanings sp vs) l.list := by
  induction h with
  | nil => exact absurd rfl hne
  | @cons f p fs sp hok hrest ih =>
    intro i r vs he
    cases hrest with
    | nil =>
      rw [entries] at he
      obtain ⟨⟨r0, v⟩, h1, h2⟩ := Option.bind_eq_some_iff.1 he
      obtain ⟨w, hw, e⟩ := of_skipWs i
      obtain ⟨t, ht, et, hv⟩ := hok.2.sound _ _ _ h1
      obtain ⟨w1, hw1, e1⟩ := of_skipWs r0
      simp only at h2
      split at h2
      · rename_i r1 heq
        simp only [Option.some.injEq, Prod.mk.injEq] at h2
        obtain ⟨rfl, rfl⟩ := h2
        refine ⟨rfl, .one w t w1, by rw [Elems.Valid]; exact ⟨hw, ht, hw1⟩, ?_, ?_⟩
        · rw [Elems.text, e, et, e1, heq]
          simp
        · exact .cons hv .nil
      · simp at h2
    | @cons g q fs sp hok' hrest =>
      rw [entries] at he
      · obtain ⟨⟨r0, v⟩, h1, h2⟩ := Option.bind_eq_some_iff.1 he
        obtain ⟨w, hw, e⟩ := of_skipWs i
        obtain ⟨t, ht, et, hv⟩ := hok.2.sound _ _ _ h1
        obtain ⟨w1, hw1, e1⟩ := of_skipWs r0
        simp only at h2
        split at h2
        · rename_i r1 heq
          obtain ⟨⟨r2, us⟩, h3, h4⟩ := Option.map_eq_some_iff.1 h2
          simp only [Prod.mk.injEq] at h4
          obtain ⟨rfl, rfl⟩ := h4
          obtain ⟨hlen, l, hl, el, hl'⟩ := ih (by simp) _ _ _ h3
          refine ⟨by simp [hlen], .more w t w1 l, by rw [Elems.Valid]; exact ⟨hw, ht, hw1, hl⟩, ?_, ?_⟩
          · rw [Elems.text, e, et, e1, heq, el]
            simp
          · exact .cons hv hl'
        · simp at h2
      · simp

theorem entries_complete (h : List.Forall₂ (FieldOk N) fs sp) (hne : fs ≠ []) : ∀ (l : Elems) (r : List Char) (vs : List α),
    vs.length = sp.length → l.Valid → l.text.length ≤ N →
    List.Forall₂ (fun f x => f.2 x) (meanings sp vs) l.list → entries fs (l.text ++ ']' :: r) = some (r, vs) := by
  induction h with
  | nil => exact absurd rfl hne
  | @cons f p fs sp hok hrest ih =>
    intro l r vs hlen hv hN hf
    obtain ⟨v, vs, rfl⟩ : ∃ v us, vs = v :: us := by
      cases vs with
      | nil => simp at hlen
      | cons v us => exact ⟨v, us, rfl⟩
    have hlen : vs.length = sp.length := by simpa using hlen
    have em : meanings (p :: sp) (v :: vs) = (p.1, p.2 v) :: meanings sp vs := rfl
    rw [em] at hf
    cases hrest with
    | nil =>
      obtain rfl := List.length_eq_zero_iff.1 hlen
      cases l with
      | one pre t post =>
        rw [Elems.Valid] at hv
        rw [Elems.text] at hN
        simp only [List.length_append] at hN
        rw [Elems.list] at hf
        cases hf with
        | cons h1 _ =>
          rw [Elems.text, List.append_assoc, List.append_assoc, entries, skip_tree hv.1 t hv.2.1,
            hok.2.complete t _ v hv.2.1 h1 (by omega) (stop_end hv.2.2 (.inr (.inl rfl)) r), Option.bind_some]
          simp only
          rw [skip_char hv.2.2 (by decide)]
          rfl
      | more pre t post rest =>
        rw [Elems.list] at hf
        cases hf with
        | cons h1 h2 =>
          cases rest <;> (rw [Elems.list] at h2; simp [meanings] at h2)
    | @cons g q fs sp hok' hrest =>
      cases l with
      | one pre t post =>
        rw [Elems.list] at hf
        cases hf with
        | cons h1 h2 =>
          cases vs with
          | nil => simp at hlen
          | cons u vs => simp [meanings] at h2
      | more pre t post rest =>
        rw [Elems.Valid] at hv
        rw [Elems.text] at hN
        simp only [List.length_append, List.length_cons] at hN
        rw [Elems.list] at hf
        cases hf with
        | cons h1 h2 =>
          have key := ih (by simp) rest r vs hlen hv.2.2.2 (by omega) h2
          rw [Elems.text, List.append_assoc, List.append_assoc, List.append_assoc, List.cons_append, entries]
          · rw [skip_tree hv.1 t hv.2.1,
              hok.2.complete t _ v hv.2.1 h1 (by omega) (stop_end hv.2.2.1 (.inl rfl) _), Option.bind_some]
            simp only
            rw [skip_char hv.2.2.1 (by decide)]
            simp only
            rw [key]
            rfl
          · simp

/-! ### Records -/

theorem record_sound (h : List.Forall₂ (FieldOk N) fs sp) (hne : fs ≠ []) (hn : (sp.map Prod.fst).Nodup)
    {n : ℕ} {i r : List Char} {vs : List α} (hr : record fs n i = some (r, vs)) :
    vs.length = sp.length ∧ ∃ t : Tree, t.Valid ∧ i = t.text ++ r ∧ IsRecord (meanings sp vs) t := by
  have hl := h.length_eq
  unfold record at hr
  split at hr
  · rename_i r0
    obtain ⟨w, hw, e⟩ := of_skipWs r0
    split at hr
    · rw [if_neg hne] at hr
      simp at hr
    · obtain ⟨⟨r1, s⟩, h1, h2⟩ := Option.bind_eq_some_iff.1 hr
      obtain ⟨us, h3, h4⟩ := Option.map_eq_some_iff.1 h2
      simp only [Prod.mk.injEq] at h4
      obtain ⟨rfl, rfl⟩ := h4
      obtain rfl := slots_all.1 h3
      obtain ⟨l, hv, el, hf⟩ := fields_sound h _ _ _ _ _ h1
      obtain ⟨l', hv', e', e''⟩ := members_pre hw l hv
      obtain ⟨f1, f2, f3⟩ := fill_sound hn hf
      simp only [List.length_map] at f1
      refine ⟨by omega, .objectOf l', by rw [Tree.Valid]; exact hv', ?_, .inr ⟨l'.list, rfl, ?_, ?_⟩⟩
      · rw [Tree.text, e', e, el]
        simp
      · rw [e'']; exact f2
      · intro f hf
        obtain ⟨j, p, v, hp, hv, rfl⟩ := mem_meanings.1 hf
        have hj : j < sp.length := (List.getElem?_eq_some_iff.1 hp).1
        rw [e'']
        refine (f3 j p hp).2 ?_ v ?_
        · rw [List.getElem?_map, List.getElem?_eq_getElem (by omega)]; rfl
        · rw [List.getElem?_map, hv]; rfl
  · rename_i r0
    obtain ⟨hlen, l, hv, el, hf⟩ := entries_sound h hne _ _ _ hr
    refine ⟨hlen, .arrayOf l, by rw [Tree.Valid]; exact hv, ?_, .inl ⟨l.list, rfl, hf⟩⟩
    rw [Tree.text, el]
    simp
  · simp at hr

theorem meanings_ne (hne : sp ≠ []) {vs : List α} (hlen : vs.length = sp.length) : ∃ f, f ∈ meanings sp vs := by
  cases sp with
  | nil => exact absurd rfl hne
  | cons p sp =>
    cases vs with
    | nil => simp at hlen
    | cons v vs => exact ⟨_, List.mem_cons_self ..⟩

theorem record_complete (h : List.Forall₂ (FieldOk N) fs sp) (hne : fs ≠ []) (hn : (sp.map Prod.fst).Nodup)
    {n : ℕ} {t : Tree} {vs : List α} (hlen : vs.length = sp.length) (ht : t.Valid) (hN : t.text.length ≤ N)
    (htn : t.text.length ≤ n) (hr : IsRecord (meanings sp vs) t) (r : List Char) :
    record fs n (t.text ++ r) = some (r, vs) := by
  have hl := h.length_eq
  have hne' : sp ≠ [] := by
    rintro rfl
    exact hne (List.length_eq_zero_iff.1 hl)
  obtain ⟨f0, hf0⟩ := meanings_ne hne' hlen
  rcases hr with ⟨l, e, hf⟩ | ⟨l, e, hsay, hf⟩
  · cases t with
    | array w =>
      simp only [Tree.elems, Option.some.injEq] at e
      subst e
      cases hm : meanings sp vs with
      | nil => rw [hm] at hf0; simp at hf0
      | cons a b => rw [hm] at hf; cases hf
    | arrayOf l =>
      simp only [Tree.elems, Option.some.injEq] at e
      subst e
      rw [Tree.Valid] at ht
      rw [Tree.text] at hN
      simp only [List.length_append, List.length_cons] at hN
      have := entries_complete h hne l r vs hlen ht (by omega) hf
      rw [Tree.text, List.cons_append, List.append_assoc]
      exact this
    | _ => simp [Tree.elems] at e
  · cases t with
    | object w =>
      simp only [Tree.members, Option.some.injEq] at e
      subst e
      obtain ⟨before, m, after, e, -⟩ := hf f0 hf0
      simp at e
    | objectOf l =>
      simp only [Tree.members, Option.some.injEq] at e
      subst e
      rw [Tree.Valid] at ht
      rw [Tree.text] at hN htn
      simp only [List.length_append, List.length_cons, List.length_nil] at hN htn
      have hfill : Fill sp (fs.map fun _ => none) l.list (vs.map some) := by
        refine fill_complete hlen _ _ (by simpa using hl) hsay ?_ hn
        intro j p v hp hv
        have hj : j < sp.length := (List.getElem?_eq_some_iff.1 hp).1
        refine .inr ⟨?_, hf _ (mem_meanings.2 ⟨j, p, v, hp, hv, rfl⟩)⟩
        rw [List.getElem?_map, List.getElem?_eq_getElem (by omega)]; rfl
      have key := fields_complete h hn l n r _ _ ht (by omega) (by omega) hfill
      obtain ⟨u, hu⟩ := members_skip l ht ('}' :: r)
      have e : Tree.text (.objectOf l) ++ r = '{' :: (l.text ++ '}' :: r) := by rw [Tree.text]; simp
      rw [e, record]
      rw [hu] at key ⊢
      split
      · rename_i r' heq
        exact absurd (List.cons.inj heq).1 (by decide)
      · rw [key, Option.bind_some]
        simp only
        rw [slots_all.2 rfl]
        rfl
    | _ => simp [Tree.members] at e

end

end StepperPaths.ConfigText
