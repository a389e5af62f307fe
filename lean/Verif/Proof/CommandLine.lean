import Verif.Model.CommandLine
import Verif.Spec.CommandLine
import Verif.Proof.SvgNumber

/-! Command lines: the parser of the arguments reads what is written, and nothing else. -/

namespace StepperPaths.Cli
open Spec.Cli

/-- The option of a key. -/
def optOf (k : Key) : Opt := ⟨k.letter, k.word, true⟩

/-- `--help`. -/
def helpOpt : Opt := ⟨some 'h', ['h', 'e', 'l', 'p'], false⟩

/-- The options are those of the keys, and `--help`. -/
structure Table (opts : List Opt) (keys : List Key) : Prop where
  word : ∀ k ∈ keys, findOpt opts (.long k.word) = some (optOf k)
  letter : ∀ k ∈ keys, ∀ c, k.letter = some c → findOpt opts (.short c) = some (optOf k)
  long : ∀ k ∈ keys, 2 ≤ k.word.length ∧ '=' ∉ k.word
  dash : ∀ k ∈ keys, ∀ c, k.letter = some c → c ≠ '-' ∧ c ≠ '='
  h : findOpt opts (.short 'h') = some helpOpt
  help : findOpt opts (.long ['h', 'e', 'l', 'p']) = some helpOpt
  only : ∀ o ∈ opts, o = helpOpt ∨ ∃ k ∈ keys, o = optOf k
  other : ∀ k ∈ keys, k.word ≠ ['h', 'e', 'l', 'p']

theorem parseLoop_go {opts : List Opt} {cur : Arg} {m m' : Matches} (h : step opts cur m = some (.go m'))
    (rest : List Arg) : parseLoop opts (cur :: rest) m = parseLoop opts rest m' := by
  cases rest <;> simp [parseLoop, h]

theorem parseLoop_want {opts : List Opt} {cur : Arg} {m m' : Matches} {o : Opt}
    (h : step opts cur m = some (.want o m')) (v : Arg) (rest : List Arg) :
    parseLoop opts (cur :: v :: rest) m = parseLoop opts rest (m'.push o (some v)) := by
  simp [parseLoop, h]

theorem parseLoop_stop {opts : List Opt} (m : Matches) (rest : List Arg) :
    parseLoop opts (['-', '-'] :: rest) m = some { m with free := m.free ++ rest } := by
  cases rest <;> simp [parseLoop, step]

theorem parseLoop_none {opts : List Opt} {cur : Arg} {m : Matches} (h : step opts cur m = none)
    (rest : List Arg) : parseLoop opts (cur :: rest) m = none := by
  cases rest <;> simp [parseLoop, h]

/-- What an item adds to the matches. -/
def itemVals : Item → List (Opt × Option Arg)
  | .word k v _ => [(optOf k, some v)]
  | .letter k _ v _ => [(optOf k, some v)]
  | .help n => List.replicate (n + 1) (helpOpt, none)
  | .short n k _ v _ => List.replicate n (helpOpt, none) ++ [(optOf k, some v)]
  | .helpWord _ => [(helpOpt, none)]
  | .other _ => []

def Matches.add (m : Matches) (vals : List (Opt × Option Arg)) (free : List Arg) : Matches :=
  ⟨m.vals ++ vals, m.free ++ free⟩

theorem takeWhile_ne {w : List Char} (h : '=' ∉ w) (r : List Char) :
    (w ++ '=' :: r).takeWhile (fun c => decide (c ≠ '=')) = w ∧
      (w ++ '=' :: r).dropWhile (fun c => decide (c ≠ '=')) = '=' :: r := by
  induction w with
  | nil => simp
  | cons c w ih =>
    simp only [List.mem_cons, not_or] at h
    have hc : decide (c ≠ '=') = true := by simpa using fun e => h.1 e.symm
    have := ih h.2
    simp only [List.cons_append, List.takeWhile_cons, List.dropWhile_cons, hc, if_true, this, and_self]

theorem takeWhile_ne' {w : List Char} (h : '=' ∉ w) :
    w.takeWhile (fun c => decide (c ≠ '=')) = w ∧ w.dropWhile (fun c => decide (c ≠ '=')) = [] := by
  induction w with
  | nil => simp
  | cons c w ih =>
    simp only [List.mem_cons, not_or] at h
    have hc : decide (c ≠ '=') = true := by simpa using fun e => h.1 e.symm
    have := ih h.2
    simp only [List.takeWhile_cons, List.dropWhile_cons, hc, if_true, this, and_self]

theorem longs_plain {opts : List Opt} {w : List Char} (h : '=' ∉ w) {o : Opt}
    (ho : findOpt opts (nameOf w) = some o) (m : Matches) : longs opts w m = attach o none m := by
  simp only [longs, takeWhile_ne' h, ho]

theorem longs_value {opts : List Opt} {w : List Char} (h : '=' ∉ w) {o : Opt}
    (ho : findOpt opts (nameOf w) = some o) (v : Arg) (m : Matches) :
    longs opts (w ++ '=' :: v) m = attach o (some v) m := by
  simp only [longs, takeWhile_ne h, ho]

theorem step_long {opts : List Opt} {c : Char} {w : List Char} (m : Matches) :
    step opts ('-' :: '-' :: c :: w) m = longs opts (c :: w) m := by
  simp [step]

theorem step_short {opts : List Opt} {c : Char} {w : List Char} (hc : c ≠ '-') (m : Matches) :
    step opts ('-' :: c :: w) m = shorts opts (c :: w) m := by
  simp [step, hc]

theorem nameOf_long {w : List Char} (h : 2 ≤ w.length) : nameOf w = .long w := by
  match w, h with
  | _ :: _ :: _, _ => rfl

theorem shorts_helps {opts : List Opt} {keys : List Key} (T : Table opts keys) (n : ℕ) (r : List Char) (m : Matches) :
    shorts opts (List.replicate n 'h' ++ r) m = shorts opts r (m.add (List.replicate n (helpOpt, none)) []) := by
  induction n generalizing m with
  | zero => simp [Matches.add]
  | succ n ih =>
    rw [List.replicate_succ, List.cons_append, shorts, T.h]
    simp only [helpOpt, Bool.false_eq_true, if_false]
    rw [← helpOpt, ih]
    simp [Matches.add, Matches.push, List.replicate_succ]

theorem shorts_value {opts : List Opt} {keys : List Key} (T : Table opts keys) {k : Key} (hk : k ∈ keys) {c : Char}
    (hc : k.letter = some c) (v : List Char) (m : Matches) :
    shorts opts (c :: v) m = if v = [] then some (.want (optOf k) m) else some (.go (m.push (optOf k) (some v))) := by
  rw [shorts, T.letter k hk c hc]
  by_cases hv : v = [] <;> simp [hv, optOf, attach]

/-- An item is read. -/
theorem parseLoop_item {opts : List Opt} {keys : List Key} (T : Table opts keys) {i : Item} (hi : i.Valid keys)
    (rest : List Arg) (m : Matches) :
    parseLoop opts (i.text ++ rest) m = parseLoop opts rest (m.add (itemVals i) i.files) := by
  cases i with
  | word k v eq =>
    have hk : k ∈ keys := hi
    obtain ⟨h2, h3⟩ := T.long k hk
    have ho := T.word k hk
    rw [← nameOf_long h2] at ho
    obtain ⟨c, w, hw⟩ : ∃ c w, k.word = c :: w := by
      cases h : k.word with
      | nil => simp [h] at h2
      | cons c w => exact ⟨c, w, rfl⟩
    cases eq with
    | false =>
      have hs : step opts ('-' :: '-' :: k.word) m = some (.want (optOf k) m) := by
        rw [hw, step_long, ← hw, longs_plain h3 ho]
        rfl
      simp only [Item.text, withValue, Bool.false_eq_true, if_false, List.cons_append, List.nil_append]
      rw [parseLoop_want hs]
      simp [Matches.add, Matches.push, itemVals, Item.files]
    | true =>
      have hs : step opts ('-' :: '-' :: (k.word ++ '=' :: v)) m = some (.go (m.push (optOf k) (some v))) := by
        rw [hw, List.cons_append, step_long, ← List.cons_append, ← hw, longs_value h3 ho]
        rfl
      simp only [Item.text, withValue, if_true, List.cons_append, List.nil_append, List.append_assoc]
      rw [parseLoop_go hs]
      simp [Matches.add, Matches.push, itemVals, Item.files]
  | letter k c v eq =>
    obtain ⟨hk, hc⟩ := hi
    have h3 : '=' ∉ [c] := by simpa using fun e => (T.dash k hk c hc).2 e.symm
    have ho : findOpt opts (nameOf [c]) = some (optOf k) := T.letter k hk c hc
    cases eq with
    | false =>
      have hs : step opts ['-', '-', c] m = some (.want (optOf k) m) := by
        rw [step_long, longs_plain h3 ho]
        rfl
      simp only [Item.text, withValue, Bool.false_eq_true, if_false, List.cons_append, List.nil_append]
      rw [parseLoop_want hs]
      simp [Matches.add, Matches.push, itemVals, Item.files]
    | true =>
      have hs : step opts ('-' :: '-' :: c :: '=' :: v) m = some (.go (m.push (optOf k) (some v))) := by
        have := longs_value h3 ho v m
        rw [step_long]
        exact this
      simp only [Item.text, withValue, if_true, List.cons_append, List.nil_append]
      rw [parseLoop_go hs]
      simp [Matches.add, Matches.push, itemVals, Item.files]
  | help n =>
    have hs : step opts ('-' :: List.replicate (n + 1) 'h') m =
        some (.go (m.add (List.replicate (n + 1) (helpOpt, none)) [])) := by
      have := shorts_helps T (n + 1) [] m
      rw [List.append_nil] at this
      rw [List.replicate_succ, step_short (by decide), ← List.replicate_succ, this]
      rfl
    simp only [Item.text, List.cons_append, List.nil_append]
    rw [parseLoop_go hs]
    simp [itemVals, Item.files]
  | short n k c v glued =>
    obtain ⟨hk, hc, hg⟩ := hi
    have hd := (T.dash k hk c hc).1
    have hs : ∀ r, step opts ('-' :: (List.replicate n 'h' ++ c :: r)) m =
        shorts opts (c :: r) (m.add (List.replicate n (helpOpt, none)) []) := by
      intro r
      rw [← shorts_helps T]
      cases n with
      | zero => exact step_short hd m
      | succ n => rw [List.replicate_succ, List.cons_append]; exact step_short (by decide) m
    cases glued with
    | false =>
      have h := hs []
      rw [shorts_value T hk hc, if_pos rfl] at h
      simp only [Item.text, withValue, Bool.false_eq_true, if_false, List.cons_append, List.nil_append]
      rw [parseLoop_want h]
      simp [Matches.add, Matches.push, itemVals, Item.files]
    | true =>
      have h := hs v
      rw [shorts_value T hk hc, if_neg (hg rfl)] at h
      simp only [Item.text, withValue, if_true, List.cons_append, List.nil_append, List.append_nil, List.append_assoc]
      rw [parseLoop_go h]
      simp [Matches.add, Matches.push, itemVals, Item.files]
  | helpWord brief =>
    cases brief with
    | true =>
      have hs : step opts ['-', '-', 'h'] m = some (.go (m.push helpOpt none)) := by
        rw [step_long, longs_plain (by decide) (by exact T.h)]
        rfl
      simp only [Item.text, if_true, List.cons_append, List.nil_append]
      rw [parseLoop_go hs]
      simp [Matches.add, Matches.push, itemVals, Item.files]
    | false =>
      have hs : step opts ['-', '-', 'h', 'e', 'l', 'p'] m = some (.go (m.push helpOpt none)) := by
        rw [step_long, longs_plain (by decide) (by exact T.help)]
        rfl
      simp only [Item.text, Bool.false_eq_true, if_false, List.cons_append, List.nil_append]
      rw [parseLoop_go hs]
      simp [Matches.add, Matches.push, itemVals, Item.files]
  | other s =>
    have hs : step opts s m = some (.go { m with free := m.free ++ [s] }) := by
      match s, hi with
      | [], _ => rfl
      | [c], hi => simp [step]
      | c :: d :: r, hi =>
        have hc : c ≠ '-' := by
          rintro rfl
          simpa using hi rfl
        simp [step, hc]
    simp only [Item.text, List.cons_append, List.nil_append]
    rw [parseLoop_go hs]
    simp [Matches.add, itemVals, Item.files]

theorem parseLoop_items {opts : List Opt} {keys : List Key} (T : Table opts keys) (items : List Item)
    (hi : ∀ i ∈ items, i.Valid keys) (rest : List Arg) (m : Matches) :
    parseLoop opts (items.flatMap Item.text ++ rest) m =
      parseLoop opts rest (m.add (items.flatMap itemVals) (items.flatMap Item.files)) := by
  induction items generalizing m with
  | nil => simp [Matches.add]
  | cons i items ih =>
    rw [List.flatMap_cons, List.append_assoc, parseLoop_item T (hi i (List.mem_cons_self ..)),
      ih fun j hj => hi j (List.mem_cons_of_mem _ hj)]
    simp [Matches.add]

/-- What is read from a line. -/
def lineMatches (l : Line) : Matches := ⟨l.items.flatMap itemVals, l.files⟩

theorem parseLoop_line {opts : List Opt} {keys : List Key} (T : Table opts keys) (l : Line) (hl : l.Valid keys) :
    parseLoop opts l.args ⟨[], []⟩ = some (lineMatches l) := by
  unfold Line.args
  rw [parseLoop_items T l.items hl]
  cases h : l.rest with
  | none => simp [parseLoop, lineMatches, Line.files, Matches.add, h]
  | some r => rw [parseLoop_stop]; simp [lineMatches, Line.files, Matches.add, h]

/-! ### Once -/

theorem optOf_inj {k k' : Key} (h : optOf k = optOf k') : k = k' := by
  cases k; cases k'; simp [optOf] at h; simp [h]

theorem optOf_ne_help (k : Key) : optOf k ≠ helpOpt := by simp [optOf, helpOpt]

theorem itemVals_perm (i : Item) :
    (itemVals i).map Prod.fst = List.replicate i.helps helpOpt ++ i.settings.map (fun s => optOf s.1) := by
  cases i <;> simp [itemVals, Item.helps, Item.settings]

theorem lineVals_perm (items : List Item) :
    ((items.flatMap itemVals).map Prod.fst).Perm
      (List.replicate (items.map Item.helps).sum helpOpt ++ (items.flatMap Item.settings).map fun s => optOf s.1) := by
  induction items with
  | nil => simp
  | cons i items ih =>
    simp only [List.flatMap_cons, List.map_append, itemVals_perm, List.map_cons, List.sum_cons, List.replicate_add]
    refine (List.Perm.append_left _ ih).trans ?_
    simp only [List.append_assoc]
    refine List.Perm.append_left _ ?_
    simp only [← List.append_assoc]
    exact List.Perm.append_right _ List.perm_append_comm

theorem line_nodup (l : Line) : ((lineMatches l).vals.map Prod.fst).Nodup ↔ l.Once := by
  rw [show (lineMatches l).vals = l.items.flatMap itemVals from rfl, (lineVals_perm l.items).nodup_iff,
    List.nodup_append]
  have h1 : (List.map (fun s : Key × Arg => optOf s.1) (l.items.flatMap Item.settings)).Nodup ↔
      (l.settings.map Prod.fst).Nodup := by
    have : List.map (fun s : Key × Arg => optOf s.1) (l.items.flatMap Item.settings) =
        (l.settings.map Prod.fst).map optOf := by simp [Line.settings, Function.comp_def]
    rw [this, List.nodup_map_iff (fun _ _ => optOf_inj)]
  rw [h1, List.nodup_replicate]
  constructor
  · rintro ⟨a, b, -⟩
    exact ⟨b, a⟩
  · rintro ⟨a, b⟩
    refine ⟨b, a, ?_⟩
    intro x hx y hy
    rw [List.eq_of_mem_replicate hx]
    simp only [List.mem_map] at hy
    obtain ⟨s, -, rfl⟩ := hy
    exact (optOf_ne_help s.1).symm

theorem getopts_line {opts : List Opt} {keys : List Key} (T : Table opts keys) (l : Line) (hl : l.Valid keys)
    (h1 : l.Once) : getopts opts l.args = some (lineMatches l) := by
  rw [getopts, parseLoop_line T l hl]
  simp only [(line_nodup l).2 h1, if_true]

theorem getopts_twice {opts : List Opt} {keys : List Key} (T : Table opts keys) (l : Line) (hl : l.Valid keys)
    (h1 : ¬ l.Once) : getopts opts l.args = none := by
  rw [getopts, parseLoop_line T l hl]
  simp only [mt (line_nodup l).1 h1, if_false]

/-! ### The values -/

theorem line_str (l : Line) (word : String) (h2 : 2 ≤ word.toList.length)
    (hh : word.toList ≠ ['h', 'e', 'l', 'p']) : (lineMatches l).str word = l.value word := by
  have key : ∀ items : List Item,
      ((items.flatMap itemVals).find? fun v => v.1.answers (nameOf word.toList)) =
        ((items.flatMap Item.settings).find? fun s => decide (s.1.word = word.toList)).map
          fun s => (optOf s.1, some s.2) := by
    intro items
    rw [nameOf_long h2]
    have hp : ∀ v : Option Arg, ((fun v : Opt × Option Arg => v.1.answers (.long word.toList)) (helpOpt, v)) = false := by
      intro v
      simp only [Opt.answers, helpOpt]
      exact decide_eq_false fun e => hh (Eq.symm e)
    have hk : ∀ (k : Key) (v : Option Arg),
        ((fun v : Opt × Option Arg => v.1.answers (.long word.toList)) (optOf k, v)) = decide (k.word = word.toList) :=
      fun k v => rfl
    have hr : ∀ n : ℕ, (List.replicate n (helpOpt, (none : Option Arg))).find?
        (fun v => v.1.answers (.long word.toList)) = none := by
      intro n
      rw [List.find?_eq_none]
      intro x hx
      rw [List.eq_of_mem_replicate hx]
      simpa using hp none
    induction items with
    | nil => rfl
    | cons i items ih =>
      rw [List.flatMap_cons, List.flatMap_cons, List.find?_append, List.find?_append, ih]
      cases i with
      | word k v eq =>
        simp only [itemVals, Item.settings, List.find?_singleton, Opt.answers, optOf]
        by_cases h : k.word = word.toList <;> simp [h]
      | letter k c v eq =>
        simp only [itemVals, Item.settings, List.find?_singleton, Opt.answers, optOf]
        by_cases h : k.word = word.toList <;> simp [h]
      | help n => simp only [itemVals, Item.settings, hr]; simp
      | short n k c v g =>
        simp only [itemVals, Item.settings, List.find?_append, hr, List.find?_singleton, Option.none_or]
        simp only [Opt.answers, optOf]
        by_cases h : k.word = word.toList <;> simp [h]
      | helpWord b =>
        have := hr 1
        simp only [List.replicate_one] at this
        simp only [itemVals, Item.settings, this]; simp
      | other s => simp [itemVals, Item.settings]
  unfold Matches.str Line.value Line.settings
  rw [show (lineMatches l).vals = l.items.flatMap itemVals from rfl, key]
  cases (l.items.flatMap Item.settings).find? _ <;> rfl

theorem line_present {opts : List Opt} {keys : List Key} (T : Table opts keys) (l : Line) (hl : l.Valid keys) :
    (lineMatches l).present "h" = true ↔ 0 < l.helps := by
  have hk : ∀ k ∈ keys, (optOf k).answers (.short 'h') = false := by
    intro k hk
    simp only [Opt.answers, optOf]
    refine decide_eq_false fun h => ?_
    have h1 := T.letter k hk 'h' h
    rw [T.h] at h1
    exact optOf_ne_help k (Option.some.inj h1).symm
  have hv : ∀ i ∈ l.items, ((itemVals i).any fun v => v.1.answers (.short 'h')) = true ↔ 0 < i.helps := by
    intro i hi
    have := hl i hi
    cases i with
    | word k v eq => simp [itemVals, Item.helps, hk k this]
    | letter k c v eq => simp [itemVals, Item.helps, hk k this.1]
    | help n => simp [itemVals, Item.helps, Opt.answers, helpOpt]
    | short n k c v g =>
      have h0 := hk k this.1
      cases n <;> simp [itemVals, Item.helps, h0]
      simp [Opt.answers, helpOpt]
    | helpWord b => simp [itemVals, Item.helps, Opt.answers, helpOpt]
    | other s => simp [itemVals, Item.helps]
  have hn : nameOf ("h" : String).toList = .short 'h' := rfl
  unfold Matches.present
  rw [hn, show (lineMatches l).vals = l.items.flatMap itemVals from rfl, Line.helps]
  rw [List.any_flatMap, List.any_eq_true, List.sum_pos_iff_exists_pos_nat]
  constructor
  · rintro ⟨i, hi, h⟩
    exact ⟨_, List.mem_map_of_mem hi, (hv i hi).1 h⟩
  · rintro ⟨n, hn, h⟩
    obtain ⟨i, hi, rfl⟩ := List.mem_map.1 hn
    exact ⟨i, hi, (hv i hi).2 h⟩

/-! ### Nothing else is read -/

theorem findOpt_some {opts : List Opt} {n : Name} {o : Opt} (h : findOpt opts n = some o) :
    o ∈ opts ∧ o.answers n = true :=
  ⟨List.mem_of_find?_eq_some h, List.find?_some (p := fun o : Opt => o.answers n) h⟩

theorem shorts_only {opts : List Opt} {keys : List Key} (T : Table opts keys) (cs : List Char) (m : Matches) (s : Step)
    (h : shorts opts cs m = some s) :
    (∃ n, cs = List.replicate n 'h' ∧ s = .go (m.add (List.replicate n (helpOpt, none)) [])) ∨
      ∃ n, ∃ k ∈ keys, ∃ c r, k.letter = some c ∧ cs = List.replicate n 'h' ++ c :: r ∧
        s = if r = [] then .want (optOf k) (m.add (List.replicate n (helpOpt, none)) [])
          else .go ((m.add (List.replicate n (helpOpt, none)) []).push (optOf k) (some r)) := by
  induction cs generalizing m with
  | nil =>
    simp only [shorts, Option.some.injEq] at h
    exact .inl ⟨0, rfl, by simp [← h, Matches.add]⟩
  | cons c cs ih =>
    simp only [shorts] at h
    cases ho : findOpt opts (.short c) with
    | none => simp [ho] at h
    | some o =>
      obtain ⟨h1, h2⟩ := findOpt_some ho
      have h3 : o.short = some c := by simpa [Opt.answers] using h2
      rcases T.only o h1 with rfl | ⟨k, hk, rfl⟩
      · have hc : c = 'h' := by simpa [helpOpt] using h3.symm
        subst hc
        simp only [ho, helpOpt, Bool.false_eq_true, if_false] at h
        rw [← helpOpt] at h
        rcases ih _ h with ⟨n, rfl, rfl⟩ | ⟨n, k, hk, c, r, hc, rfl, rfl⟩
        · refine .inl ⟨n + 1, rfl, ?_⟩
          simp [Matches.add, Matches.push, List.replicate_succ]
        · refine .inr ⟨n + 1, k, hk, c, r, hc, rfl, ?_⟩
          simp [Matches.add, Matches.push, List.replicate_succ]
      · refine .inr ⟨0, k, hk, c, cs, h3, rfl, ?_⟩
        have := shorts_value T hk h3 cs m
        simp only [shorts] at this
        rw [this] at h
        by_cases hr : cs = [] <;> simp_all [Matches.add]

theorem longs_only {opts : List Opt} {keys : List Key} (T : Table opts keys) (tail : List Char) (m : Matches) (s : Step)
    (h : longs opts tail m = some s) :
    (∃ b, ['-' :: '-' :: tail] = Item.text (.helpWord b) ∧ s = .go (m.push helpOpt none)) ∨
      (∃ k ∈ keys, ∃ w, (w = k.word ∨ ∃ c, w = [c] ∧ k.letter = some c) ∧
        ((tail = w ∧ s = .want (optOf k) m) ∨ ∃ v, tail = w ++ '=' :: v ∧ s = .go (m.push (optOf k) (some v)))) := by
  obtain ⟨w, d, hw⟩ : ∃ w d, tail.takeWhile (fun c => decide (c ≠ '=')) = w ∧
    tail.dropWhile (fun c => decide (c ≠ '=')) = d := ⟨_, _, rfl, rfl⟩
  have ht : tail = w ++ d := by rw [← hw.1, ← hw.2, List.takeWhile_append_dropWhile]
  have hd : d = [] ∨ ∃ v, d = '=' :: v := by
    cases d with
    | nil => exact .inl rfl
    | cons c v =>
      right
      have := List.head?_dropWhile_not (fun c => decide (c ≠ '=')) tail
      rw [hw.2] at this
      refine ⟨v, ?_⟩
      simp at this
      rw [this]
  simp only [longs, hw] at h
  cases ho : findOpt opts (nameOf w) with
  | none => simp [ho] at h
  | some o =>
    obtain ⟨h1, h2⟩ := findOpt_some ho
    simp only [ho] at h
    have hname : (∃ c, w = [c] ∧ o.short = some c) ∨ o.long = w := by
      match w, h2 with
      | [c], h2 => exact .inl ⟨c, rfl, by simpa [nameOf, Opt.answers] using h2⟩
      | [], h2 => exact .inr (by simpa [nameOf, Opt.answers] using h2)
      | a :: b :: r, h2 => exact .inr (by simpa [nameOf, Opt.answers] using h2)
    rcases T.only o h1 with rfl | ⟨k, hk, rfl⟩
    · left
      rcases hd with rfl | ⟨v, rfl⟩
      · simp only [attach, helpOpt, Bool.false_eq_true, if_false, Option.some.injEq] at h
        rw [ht, List.append_nil, ← h]
        rcases hname with ⟨c, rfl, hc⟩ | hl
        · have : c = 'h' := by simpa [helpOpt] using hc.symm
          subst this
          exact ⟨true, rfl, rfl⟩
        · rw [← hl]
          exact ⟨false, rfl, rfl⟩
      · simp [attach, helpOpt] at h
    · right
      refine ⟨k, hk, w, ?_, ?_⟩
      · rcases hname with ⟨c, rfl, hc⟩ | hl
        · exact .inr ⟨c, rfl, hc⟩
        · exact .inl hl.symm
      · rcases hd with rfl | ⟨v, rfl⟩
        · simp only [attach, optOf, if_true, Option.some.injEq] at h
          exact .inl ⟨by rw [ht, List.append_nil], h.symm⟩
        · simp only [attach, optOf, if_true, Option.some.injEq] at h
          exact .inr ⟨v, ht, h.symm⟩

/-- What an argument that is read stands for. -/
theorem step_only {opts : List Opt} {keys : List Key} (T : Table opts keys) (cur : Arg) (m : Matches) (s : Step)
    (h : step opts cur m = some s) :
    (∃ i : Item, i.Valid keys ∧ [cur] = i.text ∧ s = .go (m.add (itemVals i) i.files)) ∨
      (∃ o m', s = .want o m' ∧ ∀ v, ∃ i : Item, i.Valid keys ∧ [cur, v] = i.text ∧
        m'.push o (some v) = m.add (itemVals i) i.files) ∨ (cur = ['-', '-'] ∧ s = .stop) := by
  match cur with
  | [] =>
    simp only [step, Option.some.injEq] at h
    exact .inl ⟨.other [], by simp [Item.Valid], rfl, by simp [← h, Matches.add, itemVals, Item.files]⟩
  | [c] =>
    have : step opts [c] m = some (.go { m with free := m.free ++ [[c]] }) := by simp [step]
    rw [this, Option.some.injEq] at h
    exact .inl ⟨.other [c], by simp [Item.Valid], rfl, by simp [← h, Matches.add, itemVals, Item.files]⟩
  | c :: d :: r =>
    by_cases hc : c = '-'
    · subst hc
      by_cases hd : d = '-'
      · subst hd
        cases r with
        | nil => exact .inr (.inr ⟨rfl, by simpa [step] using h.symm⟩)
        | cons a r =>
          rw [step_long] at h
          rcases longs_only T _ _ _ h with ⟨b, e, rfl⟩ | ⟨k, hk, w, hw, ⟨e, rfl⟩ | ⟨v, e, rfl⟩⟩
          · exact .inl ⟨.helpWord b, trivial, e, by simp [Matches.add, Matches.push, itemVals, Item.files]⟩
          · refine .inr (.inl ⟨_, _, rfl, fun v => ?_⟩)
            rcases hw with rfl | ⟨c, rfl, hc⟩
            · exact ⟨.word k v false, hk, by simp [Item.text, withValue, e],
                by simp [Matches.add, Matches.push, itemVals, Item.files]⟩
            · exact ⟨.letter k c v false, ⟨hk, hc⟩, by simp [Item.text, withValue, e],
                by simp [Matches.add, Matches.push, itemVals, Item.files]⟩
          · left
            rcases hw with rfl | ⟨c, rfl, hc⟩
            · exact ⟨.word k v true, hk, by simp [Item.text, withValue, e],
                by simp [Matches.add, Matches.push, itemVals, Item.files]⟩
            · exact ⟨.letter k c v true, ⟨hk, hc⟩, by simp [Item.text, withValue, e],
                by simp [Matches.add, Matches.push, itemVals, Item.files]⟩
      · rw [step_short hd] at h
        rcases shorts_only T _ _ _ h with ⟨n, e, rfl⟩ | ⟨n, k, hk, c, v, hc, e, rfl⟩
        · left
          cases n with
          | zero => simp at e
          | succ n => exact ⟨.help n, trivial, by simp [Item.text, e], by simp [itemVals, Item.files]⟩
        · by_cases hv : v = []
          · subst hv
            refine .inr (.inl ⟨_, _, by rw [if_pos rfl], fun v => ⟨.short n k c v false, ⟨hk, hc, by simp⟩, ?_, ?_⟩⟩)
            · simp [Item.text, withValue, e]
            · simp [Matches.add, Matches.push, itemVals, Item.files]
          · refine .inl ⟨.short n k c v true, ⟨hk, hc, fun _ => hv⟩, by simp [Item.text, withValue, e], ?_⟩
            rw [if_neg hv]
            simp [Matches.add, Matches.push, itemVals, Item.files]
    · have : step opts (c :: d :: r) m = some (.go { m with free := m.free ++ [c :: d :: r] }) := by simp [step, hc]
      rw [this, Option.some.injEq] at h
      exact .inl ⟨.other (c :: d :: r), by simp [Item.Valid, hc], rfl, by simp [← h, Matches.add, itemVals, Item.files]⟩

theorem parseLoop_only {opts : List Opt} {keys : List Key} (T : Table opts keys) (N : ℕ) (args : List Arg)
    (hN : args.length ≤ N) (m m' : Matches) (h : parseLoop opts args m = some m') :
    ∃ l : Line, l.Valid keys ∧ l.args = args ∧ m' = m.add (l.items.flatMap itemVals) l.files := by
  induction N generalizing args m with
  | zero =>
    have : args = [] := by simpa using hN
    subst this
    simp only [parseLoop, Option.some.injEq] at h
    exact ⟨⟨[], none⟩, by simp [Line.Valid], rfl, by simp [← h, Matches.add, Line.files]⟩
  | succ N ih =>
    cases args with
    | nil =>
      simp only [parseLoop, Option.some.injEq] at h
      exact ⟨⟨[], none⟩, by simp [Line.Valid], rfl, by simp [← h, Matches.add, Line.files]⟩
    | cons cur rest =>
      have grow : ∀ (i : Item) (rest' : List Arg), i.Valid keys → rest'.length ≤ N →
          parseLoop opts rest' (m.add (itemVals i) i.files) = some m' →
          ∃ l : Line, l.Valid keys ∧ l.args = i.text ++ rest' ∧ m' = m.add (l.items.flatMap itemVals) l.files := by
        intro i rest' hi hl h
        obtain ⟨l, h1, h2, h3⟩ := ih rest' hl _ h
        refine ⟨⟨i :: l.items, l.rest⟩, ?_, ?_, ?_⟩
        · intro j hj
          rcases List.mem_cons.1 hj with rfl | hj
          · exact hi
          · exact h1 j hj
        · rw [← h2]
          simp [Line.args]
        · rw [h3]
          simp [Matches.add, Line.files]
      cases hs : step opts cur m with
      | none => rw [parseLoop_none hs] at h; simp at h
      | some s =>
        rcases step_only T cur m s hs with ⟨i, hi, e, rfl⟩ | ⟨o, m1, rfl, hv⟩ | ⟨rfl, rfl⟩
        · rw [parseLoop_go hs] at h
          obtain ⟨l, h1, h2, h3⟩ := grow i rest hi (by simpa using hN) h
          exact ⟨l, h1, by rw [h2, ← e]; rfl, h3⟩
        · cases rest with
          | nil => simp [parseLoop, hs] at h
          | cons v rest =>
            rw [parseLoop_want hs] at h
            obtain ⟨i, hi, e, e2⟩ := hv v
            rw [e2] at h
            obtain ⟨l, h1, h2, h3⟩ := grow i rest hi (by simp at hN; omega) h
            exact ⟨l, h1, by rw [h2, ← e]; rfl, h3⟩
        · rw [parseLoop_stop, Option.some.injEq] at h
          exact ⟨⟨[], some rest⟩, by simp [Line.Valid], rfl, by simp [← h, Matches.add, Line.files]⟩

/-- An argument list that is read is a command line. -/
theorem getopts_only {opts : List Opt} {keys : List Key} (T : Table opts keys) {args : List Arg} {m : Matches}
    (h : getopts opts args = some m) : ∃ l : Line, l.Valid keys ∧ l.Once ∧ l.args = args ∧ m = lineMatches l := by
  unfold getopts at h
  cases hp : parseLoop opts args ⟨[], []⟩ with
  | none => simp [hp] at h
  | some m' =>
    obtain ⟨l, h1, h2, h3⟩ := parseLoop_only T args.length args le_rfl _ _ hp
    have h4 : m' = lineMatches l := by simpa [Matches.add, lineMatches] using h3
    subst h4
    rw [hp] at h
    simp only at h
    split at h
    · rename_i ho
      exact ⟨l, h1, (line_nodup l).1 ho, h2, (Option.some.inj h).symm⟩
    · simp at h

theorem svg_table : Table svgOpts svgKeys := by
  constructor <;> decide

theorem raster_table : Table rasterOpts rasterKeys := by
  constructor <;> decide

end StepperPaths.Cli
