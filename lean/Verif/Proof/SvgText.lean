import Verif.Proof.SvgNumber

/-! Lemmas about the path parser. -/

namespace StepperPaths.Svg
open StepperPaths.Svg.Parser Spec.Svg Draw Coords

/-! ### White space and separators -/

theorem isSpace_iff {c : Char} : isSpace c ↔ c = ' ' ∨ c = '\t' ∨ c = '\r' ∨ c = '\n' := by
  simp [isSpace, or_assoc]

theorem blank_iff {w : List Char} : Blank w ↔ ∀ c ∈ w, isSpace c := by
  simp only [Blank, isSpace_iff]

theorem isWhite_iff {c : Char} : isWhite c ↔
    (9 ≤ c.toNat ∧ c.toNat ≤ 13) ∨ (0x2000 ≤ c.toNat ∧ c.toNat ≤ 0x200A) ∨
    c.toNat ∈ [0x20, 0x85, 0xA0, 0x1680, 0x2028, 0x2029, 0x202F, 0x205F, 0x3000] := by
  simp only [isWhite, Bool.or_eq_true, Bool.and_eq_true, decide_eq_true_eq, List.mem_cons,
    List.not_mem_nil, or_false]
  omega

theorem white_iff {w : List Char} : White w ↔ ∀ c ∈ w, isWhite c := by
  simp only [White, isWhite_iff]

theorem white_of_space {c : Char} (h : isSpace c) : isWhite c := by
  rcases isSpace_iff.1 h with rfl | rfl | rfl | rfl <;> decide

theorem blank_white {w : List Char} (h : Blank w) : White w :=
  white_iff.2 fun c hc => white_of_space (blank_iff.1 h c hc)

theorem noHead_imp {f g : Char → Bool} {r : List Char} (h : NoHead f r) (hg : ∀ c, g c → f c) :
    NoHead g r := by
  intro c hc
  have := h c hc
  by_contra hne
  rw [hg c (by simpa using hne)] at this
  cases this

theorem noHead_append {f : Char → Bool} {w r : List Char} (h : w ≠ []) (hw : NoHead f w) :
    NoHead f (w ++ r) := by
  match w with
  | c :: w => exact noHead_cons.2 (noHead_cons.1 hw)

theorem of_wspOpt : Reads wspOpt fun w _ => Blank w :=
  (reads_while0 isSpace).mono fun _ _ h => blank_iff.2 h.2

/-- What `comma_wsp` accepts is a separator. -/
theorem of_commaWsp : Reads commaWsp fun w _ => Separator w := by
  have h1 := (of_wspOpt.preceded ((reads_char ',').terminated of_wspOpt)).recognize
  refine (h1.alt (reads_while1 isSpace)).mono ?_
  rintro w a (⟨-, v, w1, w2, rfl, ⟨-, b1⟩, w3, w4, rfl, rfl, -, b2⟩ | ⟨-, h0, h⟩)
  · exact .inr ⟨w1, w4, b1, b2, rfl⟩
  · exact .inl ⟨blank_iff.2 h, h0⟩

theorem wspOpt_run {w r : List Char} (hw : Blank w) (hr : NoHead isSpace r) :
    wspOpt (w ++ r) = some (r, w) := while0_run (blank_iff.1 hw) hr

/-- `comma_wsp` reads a separator up to what is neither white space nor a comma. -/
theorem commaWsp_text {w r : List Char} (hw : Separator w)
    (hr : NoHead (fun c => isSpace c || c = ',') r) : commaWsp (w ++ r) = some (r, w) := by
  have hsp : NoHead isSpace r := noHead_imp hr (by simp +contextual)
  have hco : NoHead (fun c => c = ',') r := noHead_imp hr (by simp +contextual)
  unfold commaWsp
  rcases hw with ⟨hb, h0⟩ | ⟨a, b, ha, hb, rfl⟩
  · rw [alt_right]
    · exact while1_run (blank_iff.1 hb) hsp h0
    · refine recognize_none (map_none ?_)
      exact pair_none_right (wspOpt_run hb hsp) (map_none (pair_none_left (char_none hco)))
  · refine alt_left (recognize_append (a := ',') ?_)
    refine preceded_some.2 ⟨',' :: (b ++ r), a, ?_, terminated_some.2 ⟨b ++ r, b, ?_, wspOpt_run hb hsp⟩⟩
    · simpa using wspOpt_run ha (r := ',' :: (b ++ r)) (noHead_cons.2 (by decide))
    · simp [char]

/-- Characters that a number can start with. -/
def numStart (c : Char) : Bool := isDigit c || c = '.' || c = '+' || c = '-'

theorem numText_head {n : Num} (hn : n.Valid) : ∃ c t, n.text = c :: t ∧ numStart c := by
  obtain ⟨σ, w, f, e⟩ := n
  have hd := hn.digits
  cases σ with
  | plus => exact ⟨'+', _, rfl, by decide⟩
  | minus => exact ⟨'-', _, rfl, by decide⟩
  | none =>
    match w, f with
    | d :: w, f => exact ⟨digitChar d, _, rfl, by simp [numStart, digit_isDigit]⟩
    | [], some f => exact ⟨'.', _, rfl, by decide⟩
    | [], none => simp at hd

theorem number_none {r : List Char} (h : NoHead numStart r) : number r = none := by
  by_contra hne
  obtain ⟨⟨r', v⟩, hv⟩ := Option.ne_none_iff_exists'.1 hne
  obtain ⟨w, rfl, n, hn, rfl, -⟩ := of_number _ _ _ hv
  obtain ⟨c, t, ht, hc⟩ := numText_head hn
  have := h c (by simp [ht])
  rw [hc] at this
  cases this

theorem numStart_facts {c : Char} (h : numStart c) : isSpace c = false ∧ c ≠ ',' ∧ isWhite c = false := by
  simp only [numStart, Bool.or_eq_true, decide_eq_true_eq] at h
  rcases h with ((h | rfl) | rfl) | rfl
  · obtain ⟨d, rfl⟩ := of_isDigit h
    revert d
    decide
  all_goals decide

theorem number_after (n : Num) (hn : n.Valid) (r : List Char) :
    NoHead (fun c => isSpace c || c = ',') (n.text ++ r) := by
  obtain ⟨c, t, ht, hc⟩ := numText_head hn
  rw [ht]
  refine noHead_cons.2 ?_
  have := numStart_facts hc
  simp [this.1, this.2.1]

theorem separator_ne_nil {w : List Char} (h : Separator w) : w ≠ [] := by
  rcases h with h | ⟨a, b, -, -, rfl⟩
  · exact h.2
  · simp

theorem separator_stop {w : List Char} (h : Separator w) (r : List Char) : Stop (w ++ r) := by
  have key : ∀ c, isSpace c ∨ c = ',' → (isDigit c || c = '.' || c = 'e' || c = 'E') = false := by
    rintro c (hc | rfl)
    · rcases isSpace_iff.1 hc with rfl | rfl | rfl | rfl <;> decide
    · decide
  refine noHead_append (separator_ne_nil h) ?_
  intro c hc
  refine key c ?_
  rcases h with ⟨h, -⟩ | ⟨a, b, ha, -, rfl⟩
  · exact .inl (blank_iff.1 h c (List.mem_of_mem_head? hc))
  · match a with
    | [] => exact .inr (by simpa using Eq.symm (by simpa using hc))
    | d :: a =>
      simp only [List.cons_append, List.head?_cons, Option.mem_def, Option.some.injEq] at hc
      exact .inl (blank_iff.1 ha c (by simp [hc]))

/-! ### Lists of numbers -/

theorem nextNumber_text {sep : List Char} {n : Num} {r : List Char} (hs : Separator sep) (hn : n.Valid)
    (hr : Stop r) : nextNumber (sep ++ (n.text ++ r)) = some (r, n.value) :=
  preceded_some.2 ⟨_, _, commaWsp_text hs (number_after n hn r), number_text hn hr⟩

theorem of_nextNumber : Reads nextNumber fun w v =>
    ∃ sep n, Separator sep ∧ Num.Valid n ∧ w = sep ++ n.text ∧ v = n.value := by
  refine (of_commaWsp.preceded of_number).mono ?_
  rintro w v ⟨w1, w2, rfl, ⟨-, hs⟩, n, hn, rfl, rfl⟩
  exact ⟨w1, n, hs, hn, rfl, rfl⟩

theorem nextNumber_end {r : List Char} (h : NoHead (fun c => c = ',' || numStart c) (r.dropWhile isSpace)) :
    nextNumber r = none := by
  by_contra hne
  obtain ⟨⟨r', v⟩, hv⟩ := Option.ne_none_iff_exists'.1 hne
  have h1 := hv
  obtain ⟨w, rfl, sep, n, hs, hn, rfl, rfl⟩ := of_nextNumber _ _ _ hv
  obtain ⟨c, t, ht, hc⟩ := numText_head hn
  have hf := numStart_facts hc
  have hh := h
  have hrun : NoHead isSpace (n.text ++ r') := by
    rw [ht]; exact noHead_cons.2 hf.1
  rcases hs with ⟨hb, -⟩ | ⟨a, b, ha, hb, rfl⟩
  · rw [List.append_assoc, (takeWhile_run (blank_iff.1 hb) hrun).2, ht] at hh
    have := noHead_cons.1 hh
    simp [hc] at this
  · have e : (a ++ ',' :: b ++ n.text ++ r') = a ++ (',' :: (b ++ n.text ++ r')) := by simp
    rw [e, (takeWhile_run (blank_iff.1 ha) (noHead_cons.2 (by decide))).2] at hh
    have := noHead_cons.1 hh
    simp at this

/-- Nothing that continues a list of numbers follows. -/
structure ListEnd (r : List Char) : Prop where
  stop : Stop r
  next : nextNumber r = none

theorem listEnd_of {r : List Char} (h : Stop r)
    (hn : NoHead (fun c => c = ',' || numStart c) (r.dropWhile isSpace)) : ListEnd r :=
  ⟨h, nextNumber_end hn⟩

theorem dropWhile_noHead (f : Char → Bool) (r : List Char) : NoHead f (r.dropWhile f) := by
  induction r with
  | nil => simp [NoHead]
  | cons c r ih =>
    rw [List.dropWhile_cons]
    split
    · exact ih
    · rename_i h
      exact noHead_cons.2 (by simpa using h)

theorem sepTail_end {r : List Char} (h : ListEnd r) : sepTail commaWsp number r = some (r, []) := by
  rw [sepTail]
  rcases hs : commaWsp r with _ | ⟨i1, w⟩
  · rfl
  · have hn : number i1 = none := by
      by_contra hne
      obtain ⟨⟨r', v⟩, hv⟩ := Option.ne_none_iff_exists'.1 hne
      have : nextNumber r = some (r', v) := preceded_some.2 ⟨i1, w, hs, hv⟩
      rw [h.next] at this
      cases this
    obtain ⟨w', rfl, hsep⟩ := of_commaWsp _ _ _ hs
    have h0 : 0 < w'.length := List.length_pos_iff.2 (separator_ne_nil hsep)
    have : ¬ i1.length = (w' ++ i1).length := by rw [List.length_append]; omega
    simp only [this, if_false, hn]

theorem NumList.stop {l : NumList} (hl : l.Valid) {r : List Char} (h : Stop r) : Stop (l.text ++ r) := by
  match l with
  | .nil => exact h
  | .cons sep n rest =>
    have := separator_stop hl.1 (n.text ++ rest.text ++ r)
    simpa [NumList.text] using this

theorem sepTail_text (l : NumList) (hl : l.Valid) {r : List Char} (h : ListEnd r) :
    sepTail commaWsp number (l.text ++ r) = some (r, l.values) := by
  induction l with
  | nil => exact sepTail_end h
  | cons sep n rest ih =>
    obtain ⟨hs, hn, hr⟩ := hl
    have hst : Stop (rest.text ++ r) := NumList.stop hr h.stop
    have e : (NumList.cons sep n rest).text ++ r = sep ++ (n.text ++ (rest.text ++ r)) := by
      simp [NumList.text]
    rw [e, sepTail, commaWsp_text hs (number_after n hn _)]
    have h0 : 0 < sep.length := List.length_pos_iff.2 (separator_ne_nil hs)
    have h1 : ¬ (n.text ++ (rest.text ++ r)).length = (sep ++ (n.text ++ (rest.text ++ r))).length := by
      simp only [List.length_append]; omega
    have h2 : (rest.text ++ r).length < (sep ++ (n.text ++ (rest.text ++ r))).length := by
      simp only [List.length_append]; omega
    simp only [h1, if_false, number_text hn hst, h2, if_true, ih hr]
    rfl

theorem of_sepTail : Reads (sepTail commaWsp number)
    fun w v => ∃ l : NumList, l.Valid ∧ w = l.text ∧ v = l.values := by
  intro i
  induction hlen : i.length using Nat.strong_induction_on generalizing i with
  | _ k ih =>
    intro r v hp
    rw [sepTail] at hp
    have hnil : some (i, []) = some (r, v) →
        ∃ w, i = w ++ r ∧ ∃ l : NumList, l.Valid ∧ w = l.text ∧ v = l.values := by
      intro h
      simp only [Option.some.injEq, Prod.mk.injEq] at h
      obtain ⟨rfl, rfl⟩ := h
      exact ⟨[], rfl, .nil, trivial, rfl, rfl⟩
    split at hp
    · exact hnil hp
    · rename_i i1 s hs
      obtain ⟨w1, rfl, hsep⟩ := of_commaWsp _ _ _ hs
      split at hp
      · cases hp
      split at hp
      · exact hnil hp
      · rename_i i2 a ha
        obtain ⟨w2, rfl, n, hn, rfl, rfl⟩ := of_number _ _ _ ha
        split at hp
        · rename_i hlt
          simp only [Option.map_eq_some_iff, Prod.mk.injEq, Prod.exists] at hp
          obtain ⟨r', v', hv, rfl, rfl⟩ := hp
          obtain ⟨w3, rfl, l, hl, rfl, rfl⟩ := ih _ (hlen ▸ hlt) i2 rfl _ _ hv
          exact ⟨w1 ++ n.text ++ l.text, by simp, .cons w1 n l, ⟨hsep, hn, hl⟩, rfl, rfl⟩
        · cases hp

/-! ### Commands -/

theorem of_args : Reads (preceded wspOpt (separatedList0 commaWsp number)) fun w v =>
    ∃ (a : Args) (gap : List Char), a.Valid ∧ Blank gap ∧ w = a.text ++ gap ∧ v = a.values := by
  have h : Reads (separatedList0 commaWsp number) fun w v => (w = [] ∧ v = []) ∨
      ∃ (n : Num) (l : NumList), n.Valid ∧ l.Valid ∧ w = n.text ++ l.text ∧ v = n.value :: l.values := by
    intro i r v hp
    unfold separatedList0 at hp
    split at hp
    · simp only [Option.some.injEq, Prod.mk.injEq] at hp
      obtain ⟨rfl, rfl⟩ := hp
      exact ⟨[], rfl, .inl ⟨rfl, rfl⟩⟩
    · rename_i i1 a ha
      obtain ⟨w, rfl, n, hn, rfl, rfl⟩ := of_number _ _ _ ha
      simp only [Option.map_eq_some_iff, Prod.mk.injEq, Prod.exists] at hp
      obtain ⟨r', v', hv, rfl, rfl⟩ := hp
      obtain ⟨w3, rfl, l, hl, rfl, rfl⟩ := of_sepTail _ _ _ hv
      exact ⟨n.text ++ l.text, by simp, .inr ⟨n, l, hn, hl, rfl, rfl⟩⟩
  refine (of_wspOpt.preceded h).mono ?_
  rintro w v ⟨w1, w2, rfl, ⟨-, hb⟩, ⟨rfl, rfl⟩ | ⟨n, l, hn, hl, rfl, rfl⟩⟩
  · exact ⟨.none, w1, trivial, hb, by simp [Args.text], rfl⟩
  · exact ⟨.some w1 n l, [], ⟨hb, hn, hl⟩, by simp [Blank], by simp [Args.text], rfl⟩

theorem letters_eq : letters = pathLetters := by decide

/-- What `path_command` accepts. -/
theorem of_pathCommand : Reads pathCommand fun w v =>
    ∃ (c : Cmd) (gap : List Char), c.Valid ∧ Blank gap ∧ w = c.text ++ gap ∧ v = c.value := by
  refine ((of_wspOpt.preceded (reads_oneOf letters)).pair of_args).mono ?_
  rintro w ⟨ch, v⟩ ⟨w1, w2, rfl, ⟨w3, w4, rfl, ⟨-, hb⟩, rfl, hc⟩, a, gap, ha, hg, rfl, hv⟩
  refine ⟨⟨w3, ch, a⟩, gap, ⟨blank_white hb, letters_eq ▸ hc, ha⟩, hg, by simp [Cmd.text], ?_⟩
  simp only at hv
  simp [Cmd.value, hv]

/-- What can follow a command: white space, and then a letter or the end. -/
def CmdEnd (r : List Char) : Prop :=
  NoHead (fun c => !(decide (c ∈ pathLetters))) (r.dropWhile isWhite)

theorem dropWhile_white_space (r : List Char) :
    (r.dropWhile isSpace).dropWhile isWhite = r.dropWhile isWhite := by
  induction r with
  | nil => rfl
  | cons c r ih =>
    by_cases h : isSpace c
    · rw [List.dropWhile_cons_of_pos h, List.dropWhile_cons_of_pos (white_of_space h), ih]
    · rw [List.dropWhile_cons_of_neg h]

theorem letter_facts {c : Char} (h : c ∈ pathLetters) :
    isDigit c = false ∧ c ≠ '.' ∧ c ≠ 'e' ∧ c ≠ 'E' ∧ c ≠ ',' ∧ numStart c = false ∧
      isWhite c = false ∧ isSpace c = false := by
  simp only [pathLetters, List.mem_cons, List.not_mem_nil, or_false] at h
  rcases h with h | h | h | h | h | h | h | h | h | h | h | h | h | h | h | h | h | h | h | h <;>
    subst h <;> decide

theorem white_facts {c : Char} (h : isWhite c) :
    isDigit c = false ∧ c ≠ '.' ∧ c ≠ 'e' ∧ c ≠ 'E' ∧ c ≠ ',' ∧ numStart c = false := by
  have hw := isWhite_iff.1 h
  have hne : ∀ d : Char, isWhite d = false → c ≠ d := by
    rintro d hd rfl; rw [h] at hd; cases hd
  have hd : isDigit c = false := by
    by_contra hd
    obtain ⟨d, rfl⟩ := of_isDigit (by simpa using hd)
    have : ∀ d, isWhite (digitChar d) = false := by decide
    rw [this d] at h; cases h
  refine ⟨hd, hne _ (by decide), hne _ (by decide), hne _ (by decide), hne _ (by decide), ?_⟩
  simp [numStart, hd, hne '.' (by decide), hne '+' (by decide), hne '-' (by decide)]

/-- The next character is white or a letter. -/
theorem CmdEnd.head {r : List Char} (h : CmdEnd r) : ∀ c ∈ r.head?, isWhite c ∨ c ∈ pathLetters := by
  intro c hc
  match r with
  | d :: r =>
    simp only [List.head?_cons, Option.mem_def, Option.some.injEq] at hc
    subst hc
    by_cases hw : isWhite d
    · exact .inl hw
    · unfold CmdEnd at h
      rw [List.dropWhile_cons_of_neg hw] at h
      have := noHead_cons.1 h
      right
      simpa using this

theorem CmdEnd.space {r : List Char} (h : CmdEnd r) : CmdEnd (r.dropWhile isSpace) := by
  unfold CmdEnd at *
  rwa [dropWhile_white_space]

/-- The arguments end: no number follows in the place of the next one. -/
def ArgsEnd (r : List Char) : Args → Prop
  | .none => NoHead numStart (r.dropWhile isSpace)
  | .some _ _ _ => ListEnd r

theorem CmdEnd.argsEnd {r : List Char} (h : CmdEnd r) (a : Args) : ArgsEnd r a := by
  have hn : NoHead (fun c => c = ',' || numStart c) (r.dropWhile isSpace) := by
    intro c hc
    rcases h.space.head c hc with hw | hl
    · have := white_facts hw
      simp [this]
    · have := letter_facts hl
      simp [this]
  match a with
  | .none => exact noHead_imp hn (by simp +contextual)
  | .some _ _ _ =>
  refine listEnd_of ?_ hn
  intro c hc
  rcases h.head c hc with hw | hl
  · have := white_facts hw
    simp [this]
  · have := letter_facts hl
    simp [this]

/-- `path_command` reads a command with its arguments. -/
theorem pathCommand_text (ch : Char) (hch : ch ∈ pathLetters) (a : Args) (ha : a.Valid)
    {r : List Char} (h : ArgsEnd r a) :
    ∃ r', pathCommand (ch :: (a.text ++ r)) = some (r', (ch, a.values)) ∧
      r'.dropWhile isWhite = r.dropWhile isWhite := by
  have h1 : preceded wspOpt (oneOf letters) (ch :: (a.text ++ r)) = some (a.text ++ r, ch) := by
    refine preceded_some.2 ⟨ch :: (a.text ++ r), [], ?_, ?_⟩
    · exact wspOpt_run (w := []) (by simp [Blank]) (noHead_cons.2 (letter_facts hch).2.2.2.2.2.2.2)
    · exact oneOf_cons (letters_eq ▸ hch)
  match a, ha, h with
  | .none, _, h =>
    refine ⟨r.dropWhile isSpace, pair_some.2 ⟨_, h1, ?_⟩, dropWhile_white_space r⟩
    refine preceded_some.2 ⟨r.dropWhile isSpace, r.takeWhile isSpace, rfl, ?_⟩
    simp [separatedList0, number_none h, Args.values]
  | .some gap n l, ⟨hg, hn, hl⟩, h =>
    refine ⟨r, pair_some.2 ⟨_, h1, ?_⟩, rfl⟩
    have e : (Args.some gap n l).text ++ r = gap ++ (n.text ++ (l.text ++ r)) := by simp [Args.text]
    rw [e]
    refine preceded_some.2 ⟨n.text ++ (l.text ++ r), gap, wspOpt_run hg ?_, ?_⟩
    · exact noHead_imp (number_after n hn _) (by simp +contextual)
    · simp only [separatedList0, number_text hn (NumList.stop hl h.stop), sepTail_text l hl h]
      rfl

/-! ### Paths -/

/-- The result of a list of commands, as the outcome of `parse_path`. -/
def outcome : Option Built → Outcome
  | none => .panic
  | some (r, s) => .done r s

/-- The values of commands. -/
noncomputable def values (cmds : List Cmd) : List (Char × List ℝ) :=
  cmds.map fun c => (c.letter, c.args.values.map fun q : ℚ => (q : ℝ))

theorem pathText_end (cmds : List Cmd) (hc : ∀ c ∈ cmds, c.Valid) {t : List Char}
    (ht : CmdEnd t) : CmdEnd (pathText cmds ++ t) := by
  match cmds with
  | [] => exact ht
  | c :: cmds =>
    have hv := hc c (by simp)
    have : pathText (c :: cmds) ++ t =
        c.lead ++ (c.letter :: (c.args.text ++ (pathText cmds ++ t))) := by
      simp [pathText, Cmd.text]
    unfold CmdEnd
    rw [this, (takeWhile_run (white_iff.1 hv.lead) (noHead_cons.2 (letter_facts hv.letter).2.2.2.2.2.2.1)).2]
    exact noHead_cons.2 (by simp [hv.letter])

theorem pathLoop_trim (tr : Transform) (first : Bool) {t t' : List Char}
    (h : t.dropWhile isWhite = t'.dropWhile isWhite) (s : PathState) :
    pathLoop tr first t s = pathLoop tr first t' s := by
  rw [pathLoop, pathLoop, h]

/-- The commands at the start of a text, when something that does not continue them follows. -/
theorem pathLoop_prefix (tr : Transform) (cmds : List Cmd) (hc : ∀ c ∈ cmds, c.Valid) {t : List Char}
    (hend : ∀ c ∈ cmds.getLast?, ArgsEnd t c.args) :
    ∀ (first : Bool) (s : PathState),
    pathLoop tr first (pathText cmds ++ t) s =
      match buildAll tr first (values cmds) s with
      | none => some .panic
      | some (.error e, s') => some (.done (.error e) s')
      | some (.ok (), s') => pathLoop tr (first && cmds.isEmpty) t s' := by
  induction cmds with
  | nil => intro first s; simp [pathText, values, buildAll]
  | cons c cmds ih =>
    intro first s
    have hv := hc c (by simp)
    have hcs : ∀ c ∈ cmds, c.Valid := fun c hc' => hc c (by simp [hc'])
    have hsplit : pathText (c :: cmds) ++ t =
        c.lead ++ (c.letter :: (c.args.text ++ (pathText cmds ++ t))) := by
      simp [pathText, Cmd.text]
    have hle : ArgsEnd (pathText cmds ++ t) c.args := by
      match cmds with
      | [] => exact hend c rfl
      | d :: cmds =>
        have hd := hcs d (by simp)
        have : CmdEnd (pathText (d :: cmds) ++ t) := by
          have e : pathText (d :: cmds) ++ t =
              d.lead ++ (d.letter :: (d.args.text ++ (pathText cmds ++ t))) := by
            simp [pathText, Cmd.text]
          unfold CmdEnd
          rw [e, (takeWhile_run (white_iff.1 hd.lead) (noHead_cons.2 (letter_facts hd.letter).2.2.2.2.2.2.1)).2]
          exact noHead_cons.2 (by simp [hd.letter])
        exact this.argsEnd c.args
    obtain ⟨r', hp, hr'⟩ := pathCommand_text c.letter hv.letter c.args hv.args hle
    rw [hsplit, pathLoop,
      (takeWhile_run (white_iff.1 hv.lead) (noHead_cons.2 (letter_facts hv.letter).2.2.2.2.2.2.1)).2, hp]
    simp only [reduceCtorEq, if_false, values, List.map_cons, buildAll]
    cases hb : buildPath c.letter (c.args.values.map fun q : ℚ => (q : ℝ)) tr first s with
    | none => rfl
    | some v =>
      obtain ⟨_ | _, s'⟩ := v
      · rfl
      · simp only
        have hend' : ∀ d ∈ cmds.getLast?, ArgsEnd t d.args := by
          intro d hd
          refine hend d ?_
          rw [List.getLast?_cons]
          simp only [Option.mem_def] at hd
          simp [hd]
        rw [pathLoop_trim tr false hr', ih hcs hend']
        simp [values]

/-- White space can be moved into the first command. -/
theorem absorb {g : List Char} (hg : White g) (cmds : List Cmd) (hc : ∀ c ∈ cmds, c.Valid)
    {t : List Char} (ht : White t) :
    ∃ cmds' t', (∀ c ∈ cmds', Cmd.Valid c) ∧ White t' ∧ g ++ (pathText cmds ++ t) = pathText cmds' ++ t' ∧
      values cmds' = values cmds := by
  match cmds with
  | [] =>
    refine ⟨[], g ++ t, by simp, ?_, rfl, rfl⟩
    rw [white_iff] at *
    intro c hc
    rcases List.mem_append.1 hc with h | h
    · exact hg c h
    · exact ht c h
  | c :: cmds =>
    refine ⟨⟨g ++ c.lead, c.letter, c.args⟩ :: cmds, t, ?_, ht, by simp [pathText, Cmd.text], rfl⟩
    intro d hd
    rcases List.mem_cons.1 hd with rfl | hd
    · have hv := hc c (by simp)
      refine ⟨?_, hv.letter, hv.args⟩
      have h1 := hv.lead
      simp only
      rw [white_iff] at *
      intro d hd
      rcases List.mem_append.1 hd with h | h
      · exact hg d h
      · exact h1 d h
    · exact hc d (by simp [hd])

theorem pathCommand_shorter {i r : List Char} {v : Char × List ℚ} (h : pathCommand i = some (r, v)) :
    r.length < i.length := by
  obtain ⟨w, rfl, c, gap, -, -, rfl, -⟩ := of_pathCommand _ _ _ h
  simp [Cmd.text]
  omega

/-- The loop ends, and if it does so with success the text is a path. -/
theorem pathLoop_sound (tr : Transform) (text : List Char) : ∀ (first : Bool) (s : PathState),
    ∃ o, pathLoop tr first text s = some o ∧
      (∀ s', o = .done (.ok ()) s' → ∃ cmds t, (∀ c ∈ cmds, Cmd.Valid c) ∧ White t ∧
        text = pathText cmds ++ t ∧ buildAll tr first (values cmds) s = some (.ok (), s')) ∧
      (∀ e s', o = .done (.error e) s' → ∃ cmds t, (∀ c ∈ cmds, Cmd.Valid c) ∧
        text = pathText cmds ++ t ∧ buildAll tr first (values cmds) s = some (.error e, s')) := by
  induction hlen : text.length using Nat.strong_induction_on generalizing text with
  | _ k ih =>
    intro first s
    have htext : text = text.takeWhile isWhite ++ text.dropWhile isWhite :=
      (List.takeWhile_append_dropWhile).symm
    have hlead : White (text.takeWhile isWhite) := white_iff.2 fun c hc => List.mem_takeWhile_imp hc
    generalize text.takeWhile isWhite = lead at htext hlead
    rw [pathLoop]
    generalize text.dropWhile isWhite = body at htext
    subst htext
    by_cases hb : body = []
    · subst hb
      refine ⟨.done (.ok ()) s, by simp, ?_, by simp⟩
      intro s' hs
      injection hs with h1 h2
      subst h2
      exact ⟨[], lead, by simp, hlead, by simp [pathText], by simp [values, buildAll]⟩
    simp only [hb, if_false]
    cases hp : pathCommand body with
    | none => exact ⟨.panic, rfl, by simp, by simp⟩
    | some v =>
      obtain ⟨rest, cmd, args⟩ := v
      have hshort := pathCommand_shorter hp
      obtain ⟨w, rfl, c, gap, hc, hgap, rfl, hval⟩ := of_pathCommand _ _ _ hp
      simp only [Cmd.value, Prod.mk.injEq] at hval
      obtain ⟨rfl, rfl⟩ := hval
      have hcl : Cmd.Valid ⟨lead ++ c.lead, c.letter, c.args⟩ := by
        refine ⟨?_, hc.letter, hc.args⟩
        have h1 := hc.lead
        simp only
        rw [white_iff] at *
        intro d hd
        rcases List.mem_append.1 hd with h | h
        · exact hlead d h
        · exact h1 d h
      have htxt : lead ++ c.text = Cmd.text ⟨lead ++ c.lead, c.letter, c.args⟩ := by simp [Cmd.text]
      simp only
      cases hbp : buildPath c.letter (c.args.values.map fun q : ℚ => (q : ℝ)) tr first s with
      | none => exact ⟨.panic, rfl, by simp, by simp⟩
      | some b =>
        obtain ⟨e | u, s1⟩ := b
        · refine ⟨_, rfl, by simp, ?_⟩
          intro e' s' h
          injection h with h1 h2
          injection h1 with h1
          subst h1 h2
          refine ⟨[⟨lead ++ c.lead, c.letter, c.args⟩], gap ++ rest, by simpa using hcl, ?_, ?_⟩
          · simp [pathText, ← htxt]
          · simp [values, buildAll, hbp]
        · obtain ⟨o, ho, hok, herr⟩ := ih rest.length (by
            rw [← hlen]; rw [List.length_append]; omega) rest rfl false s1
          refine ⟨o, ho, ?_, ?_⟩
          · intro s' hs'
            obtain ⟨cmds, t, hcs, ht, rfl, hall⟩ := hok s' hs'
            obtain ⟨cmds', t', hcs', ht', he, hv⟩ := absorb (blank_white hgap) cmds hcs ht
            refine ⟨⟨lead ++ c.lead, c.letter, c.args⟩ :: cmds', t', ?_, ht', ?_, ?_⟩
            · intro d hd
              rcases List.mem_cons.1 hd with rfl | hd
              · exact hcl
              · exact hcs' d hd
            · have : pathText (⟨lead ++ c.lead, c.letter, c.args⟩ :: cmds') ++ t' =
                  lead ++ c.text ++ (pathText cmds' ++ t') := by simp [pathText, ← htxt]
              rw [this, ← he]; simp
            · have hv' : values (⟨lead ++ c.lead, c.letter, c.args⟩ :: cmds') =
                  (c.letter, c.args.values.map fun q : ℚ => (q : ℝ)) :: values cmds' := rfl
              rw [hv', buildAll, hbp]
              simpa [hv] using hall
          · intro e s' hs'
            obtain ⟨cmds, t, hcs, rfl, hall⟩ := herr e s' hs'
            obtain ⟨cmds', t', hcs', -, he, hv⟩ := absorb (blank_white hgap) cmds hcs (t := []) (by simp [White])
            refine ⟨⟨lead ++ c.lead, c.letter, c.args⟩ :: cmds', t' ++ t, ?_, ?_, ?_⟩
            · intro d hd
              rcases List.mem_cons.1 hd with rfl | hd
              · exact hcl
              · exact hcs' d hd
            · have : pathText (⟨lead ++ c.lead, c.letter, c.args⟩ :: cmds') ++ (t' ++ t) =
                  lead ++ c.text ++ (pathText cmds' ++ t') ++ t := by simp [pathText, ← htxt]
              rw [this, ← he]; simp
            · have hv' : values (⟨lead ++ c.lead, c.letter, c.args⟩ :: cmds') =
                  (c.letter, c.args.values.map fun q : ℚ => (q : ℝ)) :: values cmds' := rfl
              rw [hv', buildAll, hbp]
              simpa [hv] using hall

end StepperPaths.Svg
