import Verif.Proof.SvgTransform
import Verif.Props.SvgPath

/-!
Properties C52–C55 and C80: the texts of the attributes `d`, `transform`, `viewBox`, `width` and
`height`.
-/

namespace StepperPaths.Props
open StepperPaths.Svg StepperPaths.Svg.Parser Spec.Svg Draw Coords

/-! ### C52 -/

/-- **C52.**  A number in decimal notation is read completely, and its value is the number that is
written, whatever follows as long as it does not continue the number. -/
theorem C52_number (n : Num) (hn : n.Valid) (r : List Char)
    (hr : ∀ c ∈ r.head?, (∀ d, c ≠ digitChar d) ∧ c ≠ '.' ∧ c ≠ 'e' ∧ c ≠ 'E') :
    number (n.text ++ r) = some (r, n.value) := by
  refine number_text hn fun c hc => ?_
  have := hr c hc
  have hd : isDigit c = false := by
    by_contra h
    obtain ⟨d, hd⟩ := of_isDigit (by simpa using h)
    exact this.1 d hd
  simp [hd, this]

/-- **C52.**  Nothing else is read as a number. -/
theorem C52_number_only (i r : List Char) (v : ℚ) (h : number i = some (r, v)) :
    ∃ n : Num, n.Valid ∧ i = n.text ++ r ∧ v = n.value := by
  obtain ⟨w, rfl, n, hn, rfl, rfl⟩ := of_number i r v h
  exact ⟨n, hn, rfl, rfl⟩

/-- `-12.5e+1` is minus 125. -/
example : number "-12.5e+1,3".toList = some (",3".toList, -125) := by
  have h := C52_number ⟨.minus, [1, 2], some [5], some ⟨false, .plus, [1]⟩⟩ ⟨by simp, by simp⟩ ",3".toList
    (by decide)
  have ht : Num.text ⟨.minus, [1, 2], some [5], some ⟨false, .plus, [1]⟩⟩ ++ ",3".toList =
    "-12.5e+1,3".toList := by decide
  rw [ht] at h
  rw [h]
  norm_num [Num.value, Digits.val, Sign.val, Exp.val, Nat.ofDigits]

/-- **C52.**  The text of a list of commands is read back as these commands: `parse_path` does what
the commands with their numbers do, whatever separators and white space are used. -/
theorem C52_path (cmds : List Cmd) (hc : ∀ c ∈ cmds, c.Valid) (trail : List Char) (ht : White trail)
    (tr : Transform) (s : PathState) :
    parsePath (pathText cmds ++ trail) tr s =
      some (match buildAll tr true
          (cmds.map fun c => (c.letter, c.args.values.map fun q : ℚ => (q : ℝ))) s with
        | none => .panic
        | some (r, s') => .done r s') := by
  have hend : trail.dropWhile isWhite = [] := by
    have := (takeWhile_run (r := []) (white_iff.1 ht) (by simp [NoHead])).2
    simpa using this
  have hle : CmdEnd trail := by unfold CmdEnd; rw [hend]; simp [NoHead]
  unfold parsePath
  rw [pathLoop_prefix tr cmds hc fun c _ => hle.argsEnd c.args]
  unfold values
  generalize buildAll tr true (cmds.map fun c => (c.letter, c.args.values.map fun q : ℚ => (q : ℝ))) s = b
  rcases b with _ | ⟨_ | _, s'⟩
  · rfl
  · rfl
  · simp only
    rw [pathLoop, hend]
    simp

/-- Two commands as they are written: `M 1,2` and `l.5 -3e1`. -/
def exampleCmds : List Cmd :=
  [⟨[], 'M', .some [' '] ⟨.none, [1], none, none⟩ (.cons [','] ⟨.none, [2], none, none⟩ .nil)⟩,
   ⟨['\n'], 'l', .some [] ⟨.none, [], some [5], none⟩
     (.cons [' '] ⟨.minus, [3], none, some ⟨false, .none, [1]⟩⟩ .nil)⟩]

theorem exampleCmds_valid : ∀ c ∈ exampleCmds, c.Valid := by
  intro c hc
  simp only [exampleCmds, List.mem_cons, List.not_mem_nil, or_false] at hc
  rcases hc with rfl | rfl
  · refine ⟨by simp [White], by decide, ?_, ⟨by simp, by simp⟩, ?_, ⟨by simp, by simp⟩, trivial⟩
    · simp [Blank]
    · exact .inr ⟨[], [], by simp [Blank], by simp [Blank], rfl⟩
  · refine ⟨?_, by decide, ?_, ⟨by simp, by simp⟩, ?_, ⟨by simp, by simp⟩, trivial⟩
    · intro c hc
      simp only [List.mem_cons, List.not_mem_nil, or_false] at hc
      subst hc
      exact .inl (by decide)
    · simp [Blank]
    · exact .inl ⟨by simp [Blank], by simp⟩

/-- A line from (1, 2) to (1.5, -28). -/
example : parsePath "M 1,2\nl.5 -3e1 ".toList .identity .new = some (.done (.ok ())
    ⟨⟨3 / 2, -28⟩, ⟨1, 2⟩, none, [.goTo ⟨1, 2⟩, .lineTo ⟨3 / 2, -28⟩]⟩) := by
  have h := C52_path exampleCmds exampleCmds_valid [' '] (by
    intro c hc
    simp only [List.mem_cons, List.not_mem_nil, or_false] at hc
    subst hc
    exact .inr (.inr (by decide))) .identity .new
  have ht : pathText exampleCmds ++ [' '] = "M 1,2\nl.5 -3e1 ".toList := by decide
  rw [ht] at h
  rw [h]
  simp only [exampleCmds, Args.values, NumList.values, List.map_cons, List.map_nil, Num.value, Digits.val,
    Sign.val]
  simp only [buildAll, buildPath, checkArgs, moveCmd, moveFirst, lineLoop, target, PathState.push,
    PathState.new, PathState.noControl, Transform.identity]
  norm_num [Nat.ofDigits, Exp.val, Digits.val, Sign.val]

/-! ### C53 -/

/-- **C53.**  `parse_path` ends for every text. -/
theorem C53_terminates (text : List Char) (tr : Transform) (s : PathState) :
    ∃ o, parsePath text tr s = some o := by
  obtain ⟨o, h, -⟩ := pathLoop_sound tr text true s
  exact ⟨o, h⟩

/-- **C53.**  Every command that is read shortens the text. -/
theorem C53_consumes (i r : List Char) (v : Char × List ℚ) (h : pathCommand i = some (r, v)) :
    r.length < i.length := pathCommand_shorter h

/-! ### C54 -/

/-- **C54.**  `parse_path` succeeds exactly for the texts of commands that can be built, and then
does what these commands do. -/
theorem C54_ok (text : List Char) (tr : Transform) (s s' : PathState) :
    parsePath text tr s = some (.done (.ok ()) s') ↔
      ∃ (cmds : List Cmd) (trail : List Char), (∀ c ∈ cmds, c.Valid) ∧ White trail ∧
        text = pathText cmds ++ trail ∧
        buildAll tr true (cmds.map fun c => (c.letter, c.args.values.map fun q : ℚ => (q : ℝ))) s =
          some (.ok (), s') := by
  constructor
  · intro h
    obtain ⟨o, ho, hok, -⟩ := pathLoop_sound tr text true s
    unfold parsePath at h
    rw [ho] at h
    injection h with h
    exact hok s' h
  · rintro ⟨cmds, trail, hc, ht, rfl, hb⟩
    rw [C52_path cmds hc trail ht, hb]

/-- **C54.**  An error is that of the first command that cannot be built.  Bad text is never
reported as an error. -/
theorem C54_error (text : List Char) (tr : Transform) (s s' : PathState) (e : BuildError)
    (h : parsePath text tr s = some (.done (.error e) s')) :
    ∃ (cmds : List Cmd) (rest : List Char), (∀ c ∈ cmds, c.Valid) ∧ text = pathText cmds ++ rest ∧
      buildAll tr true (cmds.map fun c => (c.letter, c.args.values.map fun q : ℚ => (q : ℝ))) s =
        some (.error e, s') := by
  obtain ⟨o, ho, -, herr⟩ := pathLoop_sound tr text true s
  unfold parsePath at h
  rw [ho] at h
  injection h with h
  exact herr e s' h

theorem junk_panics (cmds : List Cmd) (hc : ∀ c ∈ cmds, c.Valid) (t : List Char)
    (hend : ∀ c ∈ cmds.getLast?, ArgsEnd t c.args) (x : Char) (rest : List Char)
    (ht : t.dropWhile isWhite = x :: rest) (hx : x ∉ pathLetters) (tr : Transform) (s s' : PathState)
    (hb : buildAll tr true (cmds.map fun c => (c.letter, c.args.values.map fun q : ℚ => (q : ℝ))) s =
      some (.ok (), s')) :
    parsePath (pathText cmds ++ t) tr s = some .panic := by
  unfold parsePath
  rw [pathLoop_prefix tr cmds hc hend]
  unfold values
  rw [hb]
  simp only
  have hw : NoHead isWhite (x :: rest) := ht ▸ dropWhile_noHead _ _
  have hp : pathCommand (x :: rest) = none := by
    refine pair_none_left (map_none (pair_none_right
      (wspOpt_run (w := []) (r := x :: rest) (by simp [Blank]) ?_) (oneOf_none ?_)))
    · exact noHead_imp hw fun c hc => white_of_space hc
    · exact noHead_cons.2 (by rw [letters_eq]; simpa using hx)
  rw [pathLoop, ht]
  simp [hp]

/-- **C54.**  The program panics when commands are followed by a character that is neither white
space nor starts a command, nor can continue a list of arguments. -/
theorem C54_panics (cmds : List Cmd) (hc : ∀ c ∈ cmds, c.Valid) (gap : List Char) (hg : White gap)
    (x : Char) (rest : List Char) (hx : x ∉ pathLetters ∧ ¬ White [x] ∧
      x ∉ [',', '.', '+', '-', 'e', 'E'] ∧ ∀ d, x ≠ digitChar d) (tr : Transform) (s s' : PathState)
    (hb : buildAll tr true (cmds.map fun c => (c.letter, c.args.values.map fun q : ℚ => (q : ℝ))) s =
      some (.ok (), s')) :
    parsePath (pathText cmds ++ (gap ++ x :: rest)) tr s = some .panic := by
  obtain ⟨h1, h2, h3, h4⟩ := hx
  have hxw : isWhite x = false := by
    by_contra h
    exact h2 (white_iff.2 (by simpa using h))
  have hd : isDigit x = false := by
    by_contra h
    obtain ⟨d, hd⟩ := of_isDigit (by simpa using h)
    exact h4 d hd
  simp only [List.mem_cons, List.not_mem_nil, or_false, not_or] at h3
  have hn : numStart x = false := by simp [numStart, hd, h3]
  have hdrop := (takeWhile_run (white_iff.1 hg) (noHead_cons (r := rest).2 hxw)).2
  refine junk_panics cmds hc _ (fun c _ => ?_) x rest hdrop h1 tr s s' hb
  have hhead : ∀ c ∈ (gap ++ x :: rest).head?, isWhite c ∨ c = x := by
    intro c hc
    match gap, hg with
    | [], _ => right; simpa using Eq.symm (by simpa using hc)
    | d :: gap, hg =>
      simp only [List.cons_append, List.head?_cons, Option.mem_def, Option.some.injEq] at hc
      exact .inl (white_iff.1 hg c (by simp [hc]))
  have hhead2 : ∀ c ∈ ((gap ++ x :: rest).dropWhile isSpace).head?, isWhite c ∨ c = x := by
    intro c hc
    have h5 := dropWhile_white_space (gap ++ x :: rest)
    rw [hdrop] at h5
    cases hr : (gap ++ x :: rest).dropWhile isSpace with
    | nil => rw [hr] at hc; cases hc
    | cons d r =>
      rw [hr] at hc h5
      simp only [List.head?_cons, Option.mem_def, Option.some.injEq] at hc
      subst hc
      by_cases hw : isWhite d
      · exact .inl hw
      · rw [List.dropWhile_cons_of_neg hw] at h5
        simp only [List.cons.injEq] at h5
        exact .inr h5.1
  have hnext : NoHead (fun c => c = ',' || numStart c) ((gap ++ x :: rest).dropWhile isSpace) := by
    intro c hc
    rcases hhead2 c hc with h | rfl
    · have := white_facts h
      simp [this]
    · simp [hn, h3]
  match c.args with
  | .none => exact noHead_imp hnext (by simp +contextual)
  | .some _ _ _ =>
    refine listEnd_of (fun c hc => ?_) hnext
    rcases hhead c hc with h | rfl
    · have := white_facts h
      simp [this]
    · simp [hd, h3]

/-- **C54.**  The program panics when a signed number follows another number without a separator,
as in the correct path `M1 2-3 4`. -/
theorem C54_sign_panics (cmds : List Cmd) (hc : ∀ c ∈ cmds, c.Valid)
    (hl : ∀ c ∈ cmds.getLast?, c.args ≠ .none) (x : Char) (hx : x = '+' ∨ x = '-') (rest : List Char)
    (tr : Transform) (s s' : PathState)
    (hb : buildAll tr true (cmds.map fun c => (c.letter, c.args.values.map fun q : ℚ => (q : ℝ))) s =
      some (.ok (), s')) :
    parsePath (pathText cmds ++ x :: rest) tr s = some .panic := by
  have hw : isWhite x = false ∧ isSpace x = false ∧ x ≠ ',' := by rcases hx with rfl | rfl <;> decide
  refine junk_panics cmds hc _ (fun c hcl => ?_) x rest ?_ ?_ tr s s' hb
  · match hca : c.args with
    | .none => exact absurd hca (hl c hcl)
    | .some _ _ _ =>
      refine ⟨noHead_cons.2 (by rcases hx with rfl | rfl <;> decide), ?_⟩
      by_contra hne
      obtain ⟨⟨r', v⟩, hv⟩ := Option.ne_none_iff_exists'.1 hne
      obtain ⟨w, e, sep, n, hs, -, rfl, -⟩ := of_nextNumber _ _ _ hv
      have hsp : NoHead (fun c => isSpace c || c = ',') (sep ++ n.text ++ r') := by
        rw [← e]; exact noHead_cons.2 (by simp [hw])
      rcases hs with ⟨hb, h0⟩ | ⟨a, b, ha, hb, rfl⟩
      · match sep, h0 with
        | c :: sep, _ =>
          have := noHead_cons.1 hsp
          simp [blank_iff.1 hb c (by simp)] at this
      · match a with
        | [] => have := noHead_cons.1 hsp; simp at this
        | c :: a =>
          have := noHead_cons.1 hsp
          simp [blank_iff.1 ha c (by simp)] at this
  · rw [List.dropWhile_cons_of_neg (by simp [hw])]
  · rcases hx with rfl | rfl <;> decide

/-- **C54.**  The program panics on a comma that is not followed by a number. -/
theorem C54_comma_panics (cmds : List Cmd) (hc : ∀ c ∈ cmds, c.Valid) (gap rest : List Char)
    (hg : Blank gap)
    (hr : ∀ x ∈ rest.head?, ¬ Blank [x] ∧ x ∉ ['.', '+', '-'] ∧ ∀ d, x ≠ digitChar d) (tr : Transform)
    (s s' : PathState)
    (hb : buildAll tr true (cmds.map fun c => (c.letter, c.args.values.map fun q : ℚ => (q : ℝ))) s =
      some (.ok (), s')) :
    parsePath (pathText cmds ++ ',' :: (gap ++ rest)) tr s = some .panic := by
  have hn : NoHead numStart rest := by
    intro c hc
    obtain ⟨-, h1, h2⟩ := hr c hc
    have hd : isDigit c = false := by
      by_contra h
      obtain ⟨d, hd⟩ := of_isDigit (by simpa using h)
      exact h2 d hd
    simp only [List.mem_cons, List.not_mem_nil, or_false, not_or] at h1
    simp [numStart, hd, h1]
  have hsp : NoHead isSpace rest := by
    intro c hc
    by_contra h
    exact (hr c hc).1 (blank_iff.2 (by simpa using h))
  refine junk_panics cmds hc _ (fun c hcl => ?_) ',' (gap ++ rest) ?_ (by decide) tr s s' hb
  · match c.args with
    | .none =>
      rw [ArgsEnd, List.dropWhile_cons_of_neg (by decide)]
      exact noHead_cons.2 (by decide)
    | .some _ _ _ =>
      refine ⟨noHead_cons.2 (by decide), ?_⟩
      have hcw : commaWsp (',' :: (gap ++ rest)) = some (rest, ',' :: gap) := by
        refine alt_left (recognize_append (w := ',' :: gap) (a := ',') ?_)
        refine preceded_some.2 ⟨',' :: (gap ++ rest), [], ?_, terminated_some.2 ⟨gap ++ rest, gap, ?_,
          wspOpt_run hg hsp⟩⟩
        · exact wspOpt_run (w := []) (by simp [Blank]) (noHead_cons.2 (by decide))
        · simp [char]
      exact map_none (pair_none_right hcw (number_none hn))
  · rw [List.dropWhile_cons_of_neg (by decide)]

/-- The correct path `M 1,2 l.5 -3e1-1-1` panics, and so does one that ends in a comma. -/
example : parsePath "M 1,2\nl.5 -3e1-1-1".toList .identity .new = some .panic ∧
    parsePath "M 1,2\nl.5 -3e1,".toList .identity .new = some .panic := by
  have hb : ∃ s', buildAll .identity true
      (exampleCmds.map fun c => (c.letter, c.args.values.map fun q : ℚ => (q : ℝ))) .new =
      some (.ok (), s') := by
    simp only [exampleCmds, Args.values, NumList.values, List.map_cons, List.map_nil]
    simp only [buildAll, buildPath, checkArgs, List.length_cons, List.length_nil]
    exact ⟨_, rfl⟩
  obtain ⟨s', hb⟩ := hb
  have h1 := C54_sign_panics exampleCmds exampleCmds_valid (by simp [exampleCmds]) '-' (.inr rfl) "1-1".toList
    .identity .new s' hb
  have h2 := C54_comma_panics exampleCmds exampleCmds_valid [] [] (by simp [Blank]) (by simp)
    .identity .new s' hb
  have e1 : pathText exampleCmds ++ '-' :: "1-1".toList = "M 1,2\nl.5 -3e1-1-1".toList := by decide
  have e2 : pathText exampleCmds ++ ',' :: ([] ++ []) = "M 1,2\nl.5 -3e1,".toList := by decide
  rw [e1] at h1
  rw [e2] at h2
  exact ⟨h1, h2⟩

/-! ### C55 -/

/-- **C55.**  `parse_transform` reads the calls that are separated by white space or a comma and
returns the transform that applies them from right to left.  What follows is ignored. -/
theorem C55_list (lead : List Char) (h0 : Blank lead) (c : Call) (hc : c.Valid)
    (l : List (List Char × Call)) (hl : ∀ x ∈ l, Separator x.1 ∧ x.2.Valid) (r : List Char)
    (hr : ¬ ∃ sep c' r', Separator sep ∧ Call.Valid c' ∧ r = sep ++ (c'.text ++ r')) :
    ∃ t, parseTransform (lead ++ (c.text ++ (callsText l ++ r))) = some t ∧
      ∀ p : Vec, t * p = applyAll (c :: l.map Prod.snd) p := by
  obtain ⟨t, ht, hp⟩ := transforms_text c hc l hl hr
  refine ⟨t, ?_, hp⟩
  have hsp : NoHead isSpace (c.text ++ (callsText l ++ r)) :=
    noHead_imp (call_noSpace hc _) (by simp +contextual)
  have : transformList (lead ++ (c.text ++ (callsText l ++ r))) = some (r, t) :=
    preceded_some.2 ⟨_, _, wspOpt_run h0 hsp, ht⟩
  simp [parseTransform, this]

/-- **C55.**  Anything else is an error: what is accepted starts with a list of calls, and this is
what is applied. -/
theorem C55_only (text : List Char) (t : Transform) (h : parseTransform text = some t) :
    ∃ lead c l r, Blank lead ∧ Call.Valid c ∧ (∀ x ∈ l, Separator x.1 ∧ Call.Valid x.2) ∧
      text = lead ++ (c.text ++ (callsText l ++ r)) ∧
      ∀ p : Vec, t * p = applyAll (c :: l.map Prod.snd) p := by
  simp only [parseTransform, Option.map_eq_some_iff, Prod.exists] at h
  obtain ⟨r, t', h, rfl⟩ := h
  obtain ⟨w, rfl, w1, w2, rfl, ⟨-, hb⟩, c, l, hc, hl, rfl, hp⟩ := (of_wspOpt.preceded of_transforms) _ _ _ h
  exact ⟨w1, c, l, r, hb, hc, hl, by simp, hp⟩

/-- **C55.**  The second of two calls without a separator is dropped, like any other text after the
last call. -/
theorem C55_dropped (c : Call) (hc : c.Valid) (x : Char) (r : List Char) (hx : ¬ Blank [x] ∧ x ≠ ',') :
    ∃ t, parseTransform (c.text ++ x :: r) = some t ∧ ∀ p : Vec, t * p = c.apply p := by
  obtain ⟨t, ht, hp⟩ := C55_list [] (by simp [Blank]) c hc [] (by simp) (x :: r) (by
    rintro ⟨sep, c', r', hs, -, e⟩
    rcases hs with ⟨hb, h0⟩ | ⟨a, b, ha, -, rfl⟩
    · match sep, h0 with
      | y :: sep, _ =>
        simp only [List.cons_append, List.cons.injEq] at e
        refine hx.1 fun z hz => ?_
        simp only [List.mem_cons, List.not_mem_nil, or_false] at hz
        rw [hz, e.1]
        exact hb y (by simp)
    · match a with
      | [] =>
        simp only [List.nil_append, List.cons_append, List.cons.injEq] at e
        exact hx.2 e.1
      | y :: a =>
        simp only [List.cons_append, List.cons.injEq] at e
        refine hx.1 fun z hz => ?_
        simp only [List.mem_cons, List.not_mem_nil, or_false] at hz
        rw [hz, e.1]
        exact ha y (by simp))
  exact ⟨t, by simpa [callsText] using ht, by simpa [applyAll] using hp⟩

/-- A whole number. -/
def int (d : Fin 10) : Num := ⟨.none, [d], none, none⟩

theorem int_valid (d : Fin 10) : (int d).Valid := ⟨by simp [int], by simp [int]⟩

theorem int_value (d : Fin 10) : (int d).value = d.val := by
  simp [int, Num.value, Sign.val, Digits.val]

/-- `translate(3)`. -/
def moveBy : Call := ⟨"translate", [], [], int 3, .nil, []⟩

/-- `scale(2,4)`. -/
def scaleBy : Call := ⟨"scale", [], [], int 2, .cons [','] (int 4) .nil, []⟩

theorem moveBy_valid : moveBy.Valid :=
  ⟨by simp [Blank, moveBy], by simp [Blank, moveBy], int_valid 3, trivial, by simp [Blank, moveBy], by
    simp [moveBy, Call.args, NumList.values, meaning]⟩

theorem scaleBy_valid : scaleBy.Valid :=
  ⟨by simp [Blank, scaleBy], by simp [Blank, scaleBy], int_valid 2,
    ⟨.inr ⟨[], [], by simp [Blank], by simp [Blank], rfl⟩, int_valid 4, trivial⟩, by simp [Blank, scaleBy], by
    simp [scaleBy, Call.args, NumList.values, meaning]⟩

theorem moveBy_apply (p : Vec) : moveBy.apply p = ⟨p.x + 3, p.y⟩ := by
  simp [moveBy, Call.apply, Call.args, NumList.values, meaning, int_value]

theorem scaleBy_apply (p : Vec) : scaleBy.apply p = ⟨2 * p.x, 4 * p.y⟩ := by
  simp [scaleBy, Call.apply, Call.args, NumList.values, meaning, int_value]

/-- Scales first, then moves. -/
example : ∃ t, parseTransform " translate(3) scale(2,4)".toList = some t ∧
    ∀ p : Vec, t * p = ⟨2 * p.x + 3, 4 * p.y⟩ := by
  obtain ⟨t, ht, hp⟩ := C55_list [' '] (by simp [Blank]) moveBy moveBy_valid [([' '], scaleBy)]
    (by simpa using ⟨.inl ⟨by simp [Blank], by simp⟩, scaleBy_valid⟩) [] (by
      rintro ⟨sep, c, r, -, -, e⟩
      simp [Call.text] at e)
  refine ⟨t, ?_, fun p => ?_⟩
  · rw [← ht]; rfl
  · rw [hp]; simp [applyAll, moveBy_apply, scaleBy_apply]

/-- Only moves. -/
example : ∃ t, parseTransform "translate(3)scale(2,4)".toList = some t ∧
    ∀ p : Vec, t * p = ⟨p.x + 3, p.y⟩ := by
  obtain ⟨t, ht, hp⟩ := C55_dropped moveBy moveBy_valid 's' "cale(2,4)".toList (by simp [Blank])
  exact ⟨t, by rw [← ht]; rfl, fun p => by rw [hp, moveBy_apply]⟩

/-! ### C80 -/

theorem blank_stop {w : List Char} (h : Blank w) {r : List Char} (hr : Stop r) : Stop (w ++ r) := by
  match w with
  | [] => exact hr
  | c :: w =>
    refine noHead_cons.2 ?_
    rcases isSpace_iff.1 (blank_iff.1 h c (by simp)) with rfl | rfl | rfl | rfl <;> decide

theorem unit_text {u : String} {v : ℚ} (h : (u, v) ∈ units) (r : List Char) :
    lengthUnit (u.toList ++ r) = some (r, v) ∧ Stop (u.toList ++ r) ∧ NoHead isSpace (u.toList ++ r) := by
  simp only [units, List.mem_cons, Prod.mk.injEq, List.not_mem_nil, or_false] at h
  rcases h with ⟨rfl, rfl⟩ | ⟨rfl, rfl⟩ | ⟨rfl, rfl⟩ | ⟨rfl, rfl⟩ | ⟨rfl, rfl⟩ | ⟨rfl, rfl⟩ <;>
    refine ⟨?_, noHead_cons.2 (by decide), noHead_cons.2 (by decide)⟩
  · rfl
  · rfl
  · exact (show _ = some (r, inch) from rfl).trans (by norm_num [inch])
  · rfl
  · exact (show _ = some (r, pt) from rfl).trans (by norm_num [inch, pt])
  · exact (show _ = some (r, pt * 12) from rfl).trans (by norm_num [inch, pt])

/-- **C80.**  A length is a number with an optional unit, and the result is in millimeters; a pixel
is taken for a millimeter.  What follows the unit is ignored. -/
theorem C80_length (a b : List Char) (ha : Blank a) (hb : Blank b) (n : Num) (hn : n.Valid) (u : String)
    (mm : ℚ) (hu : (u, mm) ∈ units) (r : List Char) :
    parseLength (a ++ (n.text ++ (b ++ (u.toList ++ r)))) = some (n.value * mm) := by
  obtain ⟨h1, h2, h3⟩ := unit_text hu r
  have hh : NoHead isSpace (n.text ++ (b ++ (u.toList ++ r))) :=
    noHead_imp (number_after n hn _) (by simp +contextual)
  obtain ⟨r', hr'⟩ : ∃ r', terminated lengthUnit wspOpt (u.toList ++ r) = some (r', mm) :=
    ⟨_, terminated_some.2 ⟨r, r.takeWhile isSpace, h1, rfl⟩⟩
  have : physicalLength (a ++ (n.text ++ (b ++ (u.toList ++ r)))) = some (r', n.value * mm) :=
    map_some.2 ⟨(a, n.value, b, some mm), pair_some.2 ⟨_, wspOpt_run ha hh, pair_some.2
      ⟨_, number_text hn (blank_stop hb h2), pair_some.2 ⟨_, wspOpt_run hb h3, opt_some' hr'⟩⟩⟩, rfl⟩
  simp [parseLength, this]

/-- **C80.**  A number that is not followed by one of the known units is taken for millimeters,
whatever follows it: percentages and unknown units are ignored. -/
theorem C80_bare (a b : List Char) (ha : Blank a) (hb : Blank b) (n : Num) (hn : n.Valid) (r : List Char)
    (hr : ∀ x ∈ r.head?, ¬ Blank [x] ∧ (∀ d, x ≠ digitChar d) ∧ x ≠ '.' ∧ ((x ≠ 'e' ∧ x ≠ 'E') ∨ b ≠ []))
    (hu : ∀ u ∈ units, ¬ u.1.toList <+: r) :
    parseLength (a ++ (n.text ++ (b ++ r))) = some n.value := by
  have hsp : NoHead isSpace r := by
    intro c hc
    by_contra h
    exact (hr c hc).1 (blank_iff.2 (by simpa using h))
  have hst : Stop (b ++ r) := by
    match b, hb with
    | [], _ =>
      intro c hc
      obtain ⟨-, h1, h2, h3⟩ := hr c (by simpa using hc)
      have hd : isDigit c = false := by
        by_contra h
        obtain ⟨d, hd⟩ := of_isDigit (by simpa using h)
        exact h1 d hd
      have h3 := h3.resolve_right (by simp)
      simp [hd, h2, h3]
    | c :: b, hb =>
      refine noHead_cons.2 ?_
      rcases isSpace_iff.1 (blank_iff.1 hb c (by simp)) with rfl | rfl | rfl | rfl <;> decide
  have hh : NoHead isSpace (n.text ++ (b ++ r)) :=
    noHead_imp (number_after n hn _) (by simp +contextual)
  have hnone : ∀ u ∈ units.map Prod.fst, ∀ v : ℚ, value v (tag u.toList) r = none := by
    intro u hmem v
    obtain ⟨u, hmem', rfl⟩ := List.mem_map.1 hmem
    refine map_none ?_
    by_contra hne
    obtain ⟨⟨r', w⟩, hw⟩ := Option.ne_none_iff_exists'.1 hne
    exact hu u hmem' ⟨r', ((tag_iff _ _ _ _).1 hw).symm⟩
  have hunit : lengthUnit r = none := by
    unfold lengthUnit
    rw [alt_right (hnone "mm" (by simp [units]) _), alt_right (hnone "cm" (by simp [units]) _),
      alt_right (hnone "in" (by simp [units]) _), alt_right (hnone "px" (by simp [units]) _),
      alt_right (hnone "pt" (by simp [units]) _)]
    exact hnone "pc" (by simp [units]) _
  have : physicalLength (a ++ (n.text ++ (b ++ r))) = some (r, n.value) :=
    map_some.2 ⟨(a, n.value, b, none), pair_some.2 ⟨_, wspOpt_run ha hh, pair_some.2
      ⟨_, number_text hn hst, pair_some.2 ⟨_, wspOpt_run hb hsp,
        opt_none' (map_none (pair_none_left hunit))⟩⟩⟩, rfl⟩
  simp [parseLength, this]

/-- **C80.**  Nothing is a length that does not start with a number. -/
theorem C80_length_only (text : List Char) (v : ℚ) (h : parseLength text = some v) :
    ∃ a n r, Blank a ∧ Num.Valid n ∧ text = a ++ (n.text ++ r) ∧
      (v = n.value ∨ ∃ u ∈ units, v = n.value * u.2) := by
  simp only [parseLength, Option.map_eq_some_iff, Prod.exists] at h
  obtain ⟨r, v', h, rfl⟩ := h
  obtain ⟨⟨w, x, b, o⟩, h1, h2⟩ := map_some.1 h
  obtain ⟨i1, h3, h4⟩ := pair_some.1 h1
  obtain ⟨i2, h5, h6⟩ := pair_some.1 h4
  obtain ⟨i3, h7, h8⟩ := pair_some.1 h6
  obtain ⟨a, rfl, hb⟩ := of_wspOpt _ _ _ h3
  obtain ⟨_, rfl, n, hn, rfl, hv⟩ := of_number _ _ _ h5
  simp only at hv h8 h2
  refine ⟨a, n, i2, hb, hn, rfl, ?_⟩
  match o with
  | none => left; rw [← h2, hv]
  | some u =>
    right
    rcases opt_some.1 h8 with ⟨u', h9, e⟩ | ⟨-, -, e⟩
    swap
    · cases e
    cases e
    obtain ⟨j, -, h10, -⟩ := terminated_some.1 h9
    have key : ∀ (s : String) (q : ℚ), (s, q) ∈ units → value q (tag s.toList) i3 = some (j, u) →
        ∃ u' ∈ units, v' = n.value * u'.2 := by
      intro s q hs hq
      obtain ⟨-, -, e⟩ := map_some.1 hq
      exact ⟨(s, q), hs, by rw [← h2, hv, e]⟩
    simp only [lengthUnit, alt_some] at h10
    rcases h10 with h | ⟨-, h | ⟨-, h | ⟨-, h | ⟨-, h | ⟨-, h⟩⟩⟩⟩⟩
    · exact key "mm" _ (by simp [units]) h
    · exact key "cm" _ (by simp [units]) h
    · exact key "in" _ (by norm_num [units, inch]) h
    · exact key "px" _ (by norm_num [units, px]) h
    · exact key "pt" _ (by norm_num [units, inch, pt]) h
    · exact key "pc" _ (by norm_num [units, inch, pt]) h

/-- Two inches, and two percent. -/
example : parseLength "2in".toList = some (508 / 10) ∧ parseLength "2%".toList = some 2 := by
  constructor
  · have := C80_length [] [] (by simp [Blank]) (by simp [Blank]) (int 2) (int_valid 2) "in" 25.4
      (by simp [units]) []
    rw [int_value] at this
    rw [show "2in".toList = [] ++ ((int 2).text ++ ([] ++ ("in".toList ++ []))) by decide, this]
    norm_num
  · have := C80_bare [] [] (by simp [Blank]) (by simp [Blank]) (int 2) (int_valid 2) ['%']
      (by simp [Blank]; decide) (by decide)
    rw [int_value] at this
    rw [show "2%".toList = [] ++ ((int 2).text ++ ([] ++ ['%'])) by decide, this]
    norm_num

/-- **C80.**  A view box is four numbers; what follows is ignored. -/
theorem C80_view_box (a : List Char) (ha : Blank a) (n1 n2 n3 n4 : Num) (h1 : n1.Valid) (h2 : n2.Valid)
    (h3 : n3.Valid) (h4 : n4.Valid) (s1 s2 s3 : List Char) (g1 : Separator s1) (g2 : Separator s2)
    (g3 : Separator s3) (r : List Char)
    (hr : ∀ c ∈ r.head?, (∀ d, c ≠ digitChar d) ∧ c ≠ '.' ∧ c ≠ 'e' ∧ c ≠ 'E') :
    parseViewBox (a ++ (n1.text ++ (s1 ++ (n2.text ++ (s2 ++ (n3.text ++ (s3 ++ (n4.text ++ r)))))))) =
      some (n1.value, n2.value, n3.value, n4.value) := by
  have hst : Stop r := by
    intro c hc
    have := hr c hc
    have hd : isDigit c = false := by
      by_contra h
      obtain ⟨d, hd⟩ := of_isDigit (by simpa using h)
      exact this.1 d hd
    simp [hd, this]
  have hh : NoHead isSpace (n1.text ++ (s1 ++ (n2.text ++ (s2 ++ (n3.text ++ (s3 ++ (n4.text ++ r))))))) :=
    noHead_imp (number_after n1 h1 _) (by simp +contextual)
  have : viewBoxArgs (a ++ (n1.text ++ (s1 ++ (n2.text ++ (s2 ++ (n3.text ++ (s3 ++ (n4.text ++ r)))))))) =
      some (r.dropWhile isSpace, (n1.value, n2.value, n3.value, n4.value)) :=
    map_some.2 ⟨(a, (n1.value, n2.value, n3.value, n4.value), r.takeWhile isSpace), pair_some.2
      ⟨_, wspOpt_run ha hh, pair_some.2 ⟨r, pair_some.2 ⟨_, number_text h1 (separator_stop g1 _),
        pair_some.2 ⟨_, nextNumber_text g1 h2 (separator_stop g2 _), pair_some.2
          ⟨_, nextNumber_text g2 h3 (separator_stop g3 _), nextNumber_text g3 h4 hst⟩⟩⟩, rfl⟩⟩, rfl⟩
  simp [parseViewBox, this]

/-- **C80.**  Nothing else is a view box. -/
theorem C80_view_box_only (text : List Char) (v : ℚ × ℚ × ℚ × ℚ) (h : parseViewBox text = some v) :
    ∃ a n1 s1 n2 s2 n3 s3 n4 r, Blank a ∧ Num.Valid n1 ∧ Num.Valid n2 ∧ Num.Valid n3 ∧ Num.Valid n4 ∧
      Separator s1 ∧ Separator s2 ∧ Separator s3 ∧
      text = a ++ (n1.text ++ (s1 ++ (n2.text ++ (s2 ++ (n3.text ++ (s3 ++ (n4.text ++ r))))))) ∧
      v = (n1.value, n2.value, n3.value, n4.value) := by
  simp only [parseViewBox, Option.map_eq_some_iff] at h
  obtain ⟨⟨r, v'⟩, h, rfl⟩ := h
  obtain ⟨⟨w, x, b⟩, h1, rfl⟩ := map_some.1 h
  obtain ⟨i1, h3, h4⟩ := pair_some.1 h1
  obtain ⟨i2, h5, -⟩ := pair_some.1 h4
  obtain ⟨a, rfl, ha⟩ := of_wspOpt _ _ _ h3
  have hN := of_nextNumber
  obtain ⟨w, rfl, w1, w2, rfl, ⟨n1, g1, rfl, e1⟩, w3, w4, rfl, ⟨s1, n2, k1, g2, rfl, e2⟩, w5, w6, rfl,
    ⟨s2, n3, k2, g3, rfl, e3⟩, s3, n4, k3, g4, rfl, e4⟩ :=
    (of_number.pair (hN.pair (hN.pair hN))) _ _ _ h5
  obtain ⟨x1, x2, x3, x4⟩ := x
  simp only at e1 e2 e3 e4
  exact ⟨a, n1, s1, n2, s2, n3, s3, n4, i2, ha, g1, g2, g3, g4, k1, k2, k3, by simp, by simp [e1, e2, e3, e4]⟩

example : parseViewBox "0 1,2 3".toList = some (0, 1, 2, 3) := by
  have hs : Separator [' '] := .inl ⟨by simp [Blank], by simp⟩
  have hk : Separator [','] := .inr ⟨[], [], by simp [Blank], by simp [Blank], rfl⟩
  have := C80_view_box [] (by simp [Blank]) (int 0) (int 1) (int 2) (int 3) (int_valid _) (int_valid _)
    (int_valid _) (int_valid _) [' '] [','] [' '] hs hk hs [] (by simp)
  simp only [int_value] at this
  rw [show "0 1,2 3".toList = [] ++ ((int 0).text ++ ([' '] ++ ((int 1).text ++ ([','] ++ ((int 2).text ++
    ([' '] ++ ((int 3).text ++ []))))))) by decide, this]
  norm_num

end StepperPaths.Props
