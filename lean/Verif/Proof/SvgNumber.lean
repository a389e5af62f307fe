import Verif.Model.SvgText
import Verif.Spec.SvgText
import Mathlib.Data.List.TakeWhile
import Mathlib.Tactic.FieldSimp
import Mathlib.Tactic.Ring

/-! Lemmas about the number parser. -/

namespace StepperPaths.Svg
open StepperPaths.Svg.Parser Spec.Svg

/-! ### Combinators -/

section
variable {α β γ : Type}

theorem map_some {p : Parser α} {f : α → β} {i r : List Char} {b : β} :
    p.map f i = some (r, b) ↔ ∃ a, p i = some (r, a) ∧ f a = b := by
  simp only [Parser.map, Option.map_eq_some_iff, Prod.mk.injEq, Prod.exists]
  constructor
  · rintro ⟨r', a, h, rfl, rfl⟩; exact ⟨a, h, rfl⟩
  · rintro ⟨a, h, rfl⟩; exact ⟨r, a, h, rfl, rfl⟩

theorem pair_some {p : Parser α} {q : Parser β} {i r : List Char} {v : α × β} :
    pair p q i = some (r, v) ↔ ∃ j, p i = some (j, v.1) ∧ q j = some (r, v.2) := by
  obtain ⟨a, b⟩ := v
  simp only [pair, Option.bind_eq_some_iff, Option.map_eq_some_iff, Prod.mk.injEq, Prod.exists]
  constructor
  · rintro ⟨j, a', h, r', b', h', rfl, rfl, rfl⟩; exact ⟨j, h, h'⟩
  · rintro ⟨j, h, h'⟩; exact ⟨j, a, h, r, b, h', rfl, rfl, rfl⟩

theorem preceded_some {p : Parser α} {q : Parser β} {i r : List Char} {b : β} :
    preceded p q i = some (r, b) ↔ ∃ j a, p i = some (j, a) ∧ q j = some (r, b) := by
  simp only [preceded, map_some, pair_some]
  constructor
  · rintro ⟨⟨a, b'⟩, ⟨j, h, h'⟩, rfl⟩; exact ⟨j, a, h, h'⟩
  · rintro ⟨j, a, h, h'⟩; exact ⟨(a, b), ⟨j, h, h'⟩, rfl⟩

theorem terminated_some {p : Parser α} {q : Parser β} {i r : List Char} {a : α} :
    terminated p q i = some (r, a) ↔ ∃ j b, p i = some (j, a) ∧ q j = some (r, b) := by
  simp only [terminated, map_some, pair_some]
  constructor
  · rintro ⟨⟨a', b⟩, ⟨j, h, h'⟩, rfl⟩; exact ⟨j, b, h, h'⟩
  · rintro ⟨j, b, h, h'⟩; exact ⟨(a, b), ⟨j, h, h'⟩, rfl⟩

theorem alt_some {p q : Parser α} {i : List Char} {v : List Char × α} :
    alt p q i = some v ↔ p i = some v ∨ (p i = none ∧ q i = some v) := by
  simp only [alt]
  cases p i <;> simp

theorem alt_left {p q : Parser α} {i : List Char} {v : List Char × α} (h : p i = some v) :
    alt p q i = some v := alt_some.2 (.inl h)

theorem alt_right {p q : Parser α} {i : List Char} (h : p i = none) : alt p q i = q i := by
  simp [alt, h]

theorem opt_some' {p : Parser α} {i r : List Char} {a : α} (h : p i = some (r, a)) :
    opt p i = some (r, some a) := by simp [opt, h]

theorem opt_none' {p : Parser α} {i : List Char} (h : p i = none) :
    opt p i = some (i, none) := by simp [opt, h]

theorem opt_some {p : Parser α} {i r : List Char} {v : Option α} :
    opt p i = some (r, v) ↔
      (∃ a, p i = some (r, a) ∧ v = some a) ∨ (p i = none ∧ r = i ∧ v = none) := by
  unfold opt
  rcases h : p i with _ | ⟨r', a⟩
  · simp [eq_comm]
  · simp only [Option.some.injEq, Prod.mk.injEq]
    constructor
    · rintro ⟨rfl, rfl⟩; exact .inl ⟨a, ⟨rfl, rfl⟩, rfl⟩
    · rintro (⟨a', ⟨rfl, rfl⟩, rfl⟩ | h)
      · exact ⟨rfl, rfl⟩
      · simp at h

theorem recognize_append {p : Parser α} {w r : List Char} {a : α} (h : p (w ++ r) = some (r, a)) :
    recognize p (w ++ r) = some (r, w) := by
  simp [recognize, h]

theorem recognize_none {p : Parser α} {i : List Char} (h : p i = none) : recognize p i = none := by
  simp [recognize, h]

theorem pair_none_left {p : Parser α} {q : Parser β} {i : List Char} (h : p i = none) :
    pair p q i = none := by simp [pair, h]

theorem pair_none_right {p : Parser α} {q : Parser β} {i j : List Char} {a : α}
    (h : p i = some (j, a)) (h' : q j = none) : pair p q i = none := by simp [pair, h, h']

theorem map_none {p : Parser α} {f : α → β} {i : List Char} (h : p i = none) :
    p.map f i = none := by simp [Parser.map, h]

/-- The parser returns a suffix of its input, and the text read has the property `G`. -/
def Reads (p : Parser α) (G : List Char → α → Prop) : Prop :=
  ∀ i r a, p i = some (r, a) → ∃ w, i = w ++ r ∧ G w a

theorem Reads.mono {p : Parser α} {G H : List Char → α → Prop} (h : Reads p G)
    (hg : ∀ w a, G w a → H w a) : Reads p H := by
  intro i r a hp
  obtain ⟨w, e, g⟩ := h i r a hp
  exact ⟨w, e, hg w a g⟩

theorem Reads.map {p : Parser α} {G : List Char → α → Prop} (h : Reads p G) (f : α → β) :
    Reads (p.map f) fun w b => ∃ a, G w a ∧ f a = b := by
  intro i r b hp
  obtain ⟨a, hp, e⟩ := map_some.1 hp
  obtain ⟨w, e', g⟩ := h i r a hp
  exact ⟨w, e', a, g, e⟩

theorem Reads.pair {p : Parser α} {q : Parser β} {G : List Char → α → Prop}
    {H : List Char → β → Prop} (h : Reads p G) (h' : Reads q H) :
    Reads (Parser.pair p q) fun w v => ∃ w1 w2, w = w1 ++ w2 ∧ G w1 v.1 ∧ H w2 v.2 := by
  intro i r v hp
  obtain ⟨j, h1, h2⟩ := pair_some.1 hp
  obtain ⟨w1, rfl, g1⟩ := h _ _ _ h1
  obtain ⟨w2, rfl, g2⟩ := h' _ _ _ h2
  exact ⟨w1 ++ w2, by simp, w1, w2, rfl, g1, g2⟩

theorem Reads.preceded {p : Parser α} {q : Parser β} {G : List Char → α → Prop}
    {H : List Char → β → Prop} (h : Reads p G) (h' : Reads q H) :
    Reads (Parser.preceded p q) fun w b => ∃ w1 w2, w = w1 ++ w2 ∧ (∃ a, G w1 a) ∧ H w2 b := by
  refine ((h.pair h').map Prod.snd).mono ?_
  rintro w b ⟨v, ⟨w1, w2, e, g1, g2⟩, rfl⟩
  exact ⟨w1, w2, e, ⟨_, g1⟩, g2⟩

theorem Reads.terminated {p : Parser α} {q : Parser β} {G : List Char → α → Prop}
    {H : List Char → β → Prop} (h : Reads p G) (h' : Reads q H) :
    Reads (Parser.terminated p q) fun w a => ∃ w1 w2, w = w1 ++ w2 ∧ G w1 a ∧ ∃ b, H w2 b := by
  refine ((h.pair h').map Prod.fst).mono ?_
  rintro w b ⟨v, ⟨w1, w2, e, g1, g2⟩, rfl⟩
  exact ⟨w1, w2, e, g1, ⟨_, g2⟩⟩

theorem Reads.alt {p q : Parser α} {G H : List Char → α → Prop} (h : Reads p G) (h' : Reads q H) :
    Reads (Parser.alt p q) fun w a => G w a ∨ H w a := by
  intro i r v hp
  rcases alt_some.1 hp with hp | ⟨-, hp⟩
  · obtain ⟨w, e, g⟩ := h _ _ _ hp
    exact ⟨w, e, .inl g⟩
  · obtain ⟨w, e, g⟩ := h' _ _ _ hp
    exact ⟨w, e, .inr g⟩

theorem Reads.opt {p : Parser α} {G : List Char → α → Prop} (h : Reads p G) :
    Reads (Parser.opt p) fun w v => (w = [] ∧ v = none) ∨ ∃ a, v = some a ∧ G w a := by
  intro i r v hp
  rcases opt_some.1 hp with ⟨a, hp', rfl⟩ | ⟨-, rfl, rfl⟩
  · obtain ⟨w, e, g⟩ := h _ _ _ hp'
    exact ⟨w, e, .inr ⟨a, rfl, g⟩⟩
  · exact ⟨[], rfl, .inl ⟨rfl, rfl⟩⟩

theorem Reads.recognize {p : Parser α} {G : List Char → α → Prop} (h : Reads p G) :
    Reads (Parser.recognize p) fun w t => t = w ∧ ∃ a, G w a := by
  intro i r v hp
  simp only [Parser.recognize, Option.map_eq_some_iff, Prod.mk.injEq, Prod.exists] at hp
  obtain ⟨r', a, hp, rfl, rfl⟩ := hp
  obtain ⟨w, rfl, g⟩ := h _ _ _ hp
  exact ⟨w, rfl, by simp, a, g⟩

theorem reads_while0 (f : Char → Bool) : Reads (while0 f) fun w t => t = w ∧ ∀ c ∈ w, f c := by
  intro i r v hp
  simp only [while0, Option.some.injEq, Prod.mk.injEq] at hp
  obtain ⟨rfl, rfl⟩ := hp
  refine ⟨i.takeWhile f, (List.takeWhile_append_dropWhile).symm, rfl, fun c hc => ?_⟩
  exact List.mem_takeWhile_imp hc

theorem reads_while1 (f : Char → Bool) :
    Reads (while1 f) fun w t => t = w ∧ w ≠ [] ∧ ∀ c ∈ w, f c := by
  intro i r v hp
  simp only [while1] at hp
  split at hp
  · cases hp
  rename_i hne
  simp only [while0, Option.some.injEq, Prod.mk.injEq] at hp
  obtain ⟨rfl, rfl⟩ := hp
  refine ⟨i.takeWhile f, (List.takeWhile_append_dropWhile).symm, rfl, hne, fun c hc => ?_⟩
  exact List.mem_takeWhile_imp hc

theorem reads_char (c : Char) : Reads (char c) fun w _ => w = [c] := by
  intro i r v hp
  match i with
  | [] => simp [char] at hp
  | d :: i =>
    simp only [char] at hp
    split at hp
    · rename_i h
      simp only [Option.some.injEq, Prod.mk.injEq] at hp
      obtain ⟨rfl, rfl⟩ := hp
      exact ⟨[c], by simp [h], rfl⟩
    · cases hp

theorem reads_oneOf (cs : List Char) : Reads (oneOf cs) fun w c => w = [c] ∧ c ∈ cs := by
  intro i r v hp
  match i with
  | [] => simp [oneOf] at hp
  | d :: i =>
    simp only [oneOf] at hp
    split at hp
    · rename_i h
      simp only [Option.some.injEq, Prod.mk.injEq] at hp
      obtain ⟨rfl, rfl⟩ := hp
      exact ⟨[d], by simp, rfl, h⟩
    · cases hp

end

/-! ### Runs of characters -/

/-- The text does not start with a character with the property. -/
def NoHead (f : Char → Bool) (r : List Char) : Prop := ∀ c ∈ r.head?, f c = false

theorem takeWhile_run {f : Char → Bool} {w r : List Char} (hw : ∀ c ∈ w, f c) (hr : NoHead f r) :
    (w ++ r).takeWhile f = w ∧ (w ++ r).dropWhile f = r := by
  have h1 : r.takeWhile f = [] ∧ r.dropWhile f = r := by
    match r with
    | [] => simp
    | c :: r => simp [hr c (by simp)]
  rw [List.takeWhile_append_of_pos hw, List.dropWhile_append_of_pos hw, h1.1, h1.2]
  simp

theorem while0_run {f : Char → Bool} {w r : List Char} (hw : ∀ c ∈ w, f c) (hr : NoHead f r) :
    while0 f (w ++ r) = some (r, w) := by
  simp [while0, takeWhile_run hw hr]

theorem while1_run {f : Char → Bool} {w r : List Char} (hw : ∀ c ∈ w, f c) (hr : NoHead f r)
    (h0 : w ≠ []) : while1 f (w ++ r) = some (r, w) := by
  simp [while1, takeWhile_run hw hr, h0, while0_run hw hr]

theorem while1_none {f : Char → Bool} {r : List Char} (hr : NoHead f r) : while1 f r = none := by
  have := takeWhile_run (f := f) (w := []) (r := r) (by simp) hr
  simp only [List.nil_append] at this
  simp [while1, this.1]

/-! ### Digits -/

theorem digit_isDigit (d : Fin 10) : isDigit (digitChar d) = true := by revert d; decide
theorem digit_val (d : Fin 10) : digitVal (digitChar d) = d := by revert d; decide

theorem digits_isDigit (l : Digits) : ∀ c ∈ l.text, isDigit c := by
  intro c hc
  obtain ⟨d, -, rfl⟩ := List.mem_map.1 hc
  exact digit_isDigit d

theorem of_isDigit {c : Char} (h : isDigit c) : ∃ d, c = digitChar d := by
  simp only [isDigit, Bool.and_eq_true, decide_eq_true_eq, Char.le_def] at h
  have h1 : 48 ≤ c.toNat := h.1
  have h2 : c.toNat ≤ 57 := h.2
  refine ⟨⟨c.toNat - 48, by omega⟩, ?_⟩
  simp only [digitChar]
  rw [show 48 + (c.toNat - 48) = c.toNat by omega, Char.ofNat_toNat]

theorem of_digits {w : List Char} (h : ∀ c ∈ w, isDigit c) : ∃ l : Digits, w = l.text := by
  induction w with
  | nil => exact ⟨[], rfl⟩
  | cons c w ih =>
    obtain ⟨d, rfl⟩ := of_isDigit (h c (by simp))
    obtain ⟨l, rfl⟩ := ih fun c hc => h c (by simp [hc])
    exact ⟨d :: l, rfl⟩

theorem text_append (l m : Digits) : Digits.text (l ++ m) = Digits.text l ++ Digits.text m := by
  simp [Digits.text]

theorem text_nil {l : Digits} : l.text = [] ↔ l = [] := by simp [Digits.text]

theorem digitsVal_text (l : Digits) : digitsVal l.text = l.val := by
  have : ∀ (l : Digits) (a : ℕ), l.text.foldl (fun a c => 10 * a + digitVal c) a =
      a * 10 ^ l.length + l.val := by
    intro l
    induction l with
    | nil => intro a; simp [Digits.text, Digits.val]
    | cons d l ih =>
      intro a
      have hc : Digits.text (d :: l) = digitChar d :: Digits.text l := rfl
      rw [hc, List.foldl_cons, ih, digit_val]
      simp only [Digits.val, List.reverse_cons, List.map_append, Nat.ofDigits_append, List.length_map,
        List.length_reverse, List.map_cons, List.map_nil, Nat.ofDigits_singleton, List.length_cons]
      ring
  simpa [digitsVal] using this l 0

theorem val_append (l m : Digits) :
    Digits.val (l ++ m) = Digits.val l * 10 ^ m.length + Digits.val m := by
  simp only [Digits.val, List.reverse_append, List.map_append, Nat.ofDigits_append, List.length_map,
    List.length_reverse]
  ring

/-! ### The value of a number -/

/-- The text does not continue a number. -/
def Stop (r : List Char) : Prop := NoHead (fun c => isDigit c || c = '.' || c = 'e' || c = 'E') r

theorem Stop.digit {r : List Char} (h : Stop r) : NoHead isDigit r := by
  intro c hc
  have := h c hc
  simp only [Bool.or_eq_false_iff] at this
  exact this.1.1.1

theorem noHead_cons {f : Char → Bool} {c : Char} {r : List Char} : NoHead f (c :: r) ↔ f c = false := by
  simp [NoHead]

theorem splitSign_text (σ : Sign) {r : List Char}
    (h : NoHead (fun c => c = '+' || c = '-') r) :
    splitSign (σ.text ++ r) = (decide (σ.val = -1), r) := by
  cases σ with
  | plus => rfl
  | minus => rfl
  | none =>
    simp only [Sign.text, List.nil_append, Sign.val]
    match r with
    | [] => rfl
    | c :: r =>
      have := noHead_cons.1 h
      simp only [Bool.or_eq_false_iff, decide_eq_false_iff_not] at this
      unfold splitSign
      split
      · simp_all
      · simp_all
      · simp

theorem digits_head (l : Digits) (r : List Char) {f : Char → Bool} (hl : l ≠ [])
    (hf : ∀ d, f (digitChar d) = false) : NoHead f (l.text ++ r) := by
  match l with
  | d :: l => exact noHead_cons.2 (hf d)

theorem notSign_digit (d : Fin 10) :
    (decide (digitChar d = '+') || decide (digitChar d = '-')) = false := by revert d; decide

theorem exp_noDigit (e : Option Exp) (r : List Char) (hr : NoHead isDigit r) :
    NoHead isDigit (expText e ++ r) := by
  match e with
  | none => exact hr
  | some e =>
    refine noHead_cons.2 ?_
    cases e.capital <;> decide

theorem fracExp_noDigit (f : Option Digits) (e : Option Exp) (r : List Char)
    (hr : NoHead isDigit r) : NoHead isDigit (fracText f ++ (expText e ++ r)) := by
  match f with
  | none => exact exp_noDigit e r hr
  | some f => exact noHead_cons.2 (by decide)

/-- The part of a number after the sign starts with a digit or a point. -/
theorem Num.body_head {n : Num} (hn : n.Valid) (r : List Char) :
    NoHead (fun c => c = '+' || c = '-') (n.whole.text ++ (fracText n.frac ++ (expText n.exp ++ r))) := by
  obtain ⟨σ, w, f, e⟩ := n
  by_cases hw : w = []
  · subst hw
    match f, hn.digits with
    | none, h => simp at h
    | some f, h => exact noHead_cons.2 (by decide)
  · exact digits_head w _ hw notSign_digit

theorem splitFrac_text (f : Option Digits) (e : Option Exp) :
    splitFrac (fracText f ++ expText e) = (Digits.text (f.getD []), expText e) := by
  have he : NoHead isDigit (expText e) := by
    simpa using exp_noDigit e [] (by simp [NoHead])
  match f with
  | some f =>
    have := takeWhile_run (digits_isDigit f) he
    simp [fracText, splitFrac, this]
  | none =>
    match e with
    | none => rfl
    | some e =>
      obtain ⟨c, σ, l⟩ := e
      cases c <;> rfl

theorem expVal_text (e : Option Exp) (he : ∀ x ∈ e, x.digits ≠ []) :
    expVal (expText e) = (e.map Exp.val).getD 0 := by
  match e with
  | none => rfl
  | some e =>
    obtain ⟨c, σ, l⟩ := e
    have hl : l ≠ [] := he _ rfl
    have h0 := digits_head (f := fun c => c = '+' || c = '-') l [] hl notSign_digit
    rw [List.append_nil] at h0
    have hs := splitSign_text σ h0
    simp only [expText, Exp.text, expVal, hs, digitsVal_text, Option.map_some, Option.getD_some,
      Exp.val, decide_eq_true_eq]
    congr 1
    cases σ <;> rfl

theorem fromStr_text {n : Num} (hn : n.Valid) : fromStr n.text = n.value := by
  obtain ⟨σ, w, f, e⟩ := n
  have h0 := Num.body_head hn []
  have h1 : Num.text ⟨σ, w, f, e⟩ = σ.text ++ (w.text ++ (fracText f ++ expText e)) := by
    simp [Num.text]
  have h2 := takeWhile_run (digits_isDigit w)
    (by simpa using fracExp_noDigit f e [] (by simp [NoHead]))
  simp only [List.append_nil] at h0
  simp only [fromStr, h1, splitSign_text σ h0, h2, splitFrac_text, expVal_text e hn.exp, ← text_append,
    digitsVal_text, val_append, Num.value]
  have h10 : (10 : ℚ) ≠ 0 := by norm_num
  have hlen : ((Digits.text (f.getD [])).length : ℤ) = (f.getD []).length := by
    simp [Digits.text]
  have hs : signVal (decide (σ.val = -1)) = (σ.val : ℚ) := by
    cases σ <;> simp [signVal, Sign.val]
  rw [hlen, hs, zpow_sub₀ h10, zpow_natCast]
  push_cast
  field_simp

/-! ### Reading a number -/

theorem oneOf_cons {cs : List Char} {c : Char} {r : List Char} (h : c ∈ cs) :
    oneOf cs (c :: r) = some (r, c) := by simp [oneOf, h]

theorem oneOf_none {cs : List Char} {r : List Char} (h : NoHead (fun c => c ∈ cs) r) :
    oneOf cs r = none := by
  match r with
  | [] => rfl
  | c :: r =>
    have := noHead_cons.1 h
    simp only [decide_eq_false_iff_not] at this
    simp [oneOf, this]

theorem char_none {c : Char} {r : List Char} (h : NoHead (fun d => d = c) r) : char c r = none := by
  match r with
  | [] => rfl
  | d :: r =>
    have := noHead_cons.1 h
    simp only [decide_eq_false_iff_not] at this
    simp [char, this]

/-- Reads a text of digits and signs. -/
theorem signOpt_text (σ : Sign) {r : List Char} (h : NoHead (fun c => c = '+' || c = '-') r) :
    ∃ v, signOpt (σ.text ++ r) = some (r, v) := by
  cases σ with
  | plus => exact ⟨_, opt_some' (oneOf_cons (by simp))⟩
  | minus => exact ⟨_, opt_some' (oneOf_cons (by simp))⟩
  | none =>
    refine ⟨_, opt_none' (oneOf_none ?_)⟩
    intro c hc
    have := h c hc
    simp only [Bool.or_eq_false_iff, decide_eq_false_iff_not] at this
    simp [this]

theorem exponent_text {e : Exp} (he : e.digits ≠ []) {r : List Char} (hr : NoHead isDigit r) :
    exponent (e.text ++ r) = some (r, e.text) := by
  obtain ⟨c, σ, l⟩ := e
  have h0 := digits_head (f := fun c => c = '+' || c = '-') l r he notSign_digit
  obtain ⟨v, hv⟩ := signOpt_text σ h0
  have hd := while1_run (digits_isDigit l) hr (fun h => he (text_nil.1 h))
  refine recognize_append (a := ((if c then 'E' else 'e'), (v, l.text))) (pair_some.2
    ⟨σ.text ++ (l.text ++ r), ?_, pair_some.2 ⟨_, hv, hd⟩⟩)
  have : Exp.text ⟨c, σ, l⟩ ++ r = (if c then 'E' else 'e') :: (σ.text ++ (l.text ++ r)) := by
    simp [Exp.text]
  rw [this]
  exact oneOf_cons (by cases c <;> simp)

theorem exponent_stop {r : List Char} (h : Stop r) : exponent r = none := by
  refine recognize_none (pair_none_left (oneOf_none ?_))
  intro c hc
  have := h c hc
  simp only [Bool.or_eq_false_iff, decide_eq_false_iff_not] at this
  simp [this]

theorem optExponent_text (e : Option Exp) (he : ∀ x ∈ e, x.digits ≠ []) {r : List Char} (h : Stop r) :
    ∃ v, opt exponent (expText e ++ r) = some (r, v) := by
  match e with
  | none => exact ⟨_, opt_none' (exponent_stop h)⟩
  | some e => exact ⟨_, opt_some' (exponent_text (he e rfl) h.digit)⟩

theorem fractionalConstant_text (w f : Digits) (h : w ++ f ≠ []) {r : List Char}
    (hr : NoHead isDigit r) :
    fractionalConstant (w.text ++ '.' :: f.text ++ r) = some (r, w.text ++ '.' :: f.text) := by
  have hdot : ∀ r, NoHead isDigit ('.' :: r) := fun r => noHead_cons.2 (by decide)
  have hc : ∀ r, char '.' ('.' :: r) = some (r, '.') := fun r => by simp [char]
  unfold fractionalConstant
  by_cases hf : f = []
  · subst hf
    have hw : w ≠ [] := by simpa using h
    rw [alt_right]
    · refine recognize_append (a := w.text) (terminated_some.2 ⟨'.' :: r, '.', ?_, hc _⟩)
      have := while1_run (digits_isDigit w) (hdot r) (fun h => hw (text_nil.1 h))
      simpa [Digits.text] using this
    · refine recognize_none (pair_none_right (j := '.' :: r) (a := w.text) ?_ ?_)
      · have := while0_run (digits_isDigit w) (hdot r)
        simpa [Digits.text] using this
      · exact map_none (pair_none_right (hc r) (while1_none hr))
  · refine alt_left (recognize_append (a := (w.text, f.text)) (pair_some.2 ⟨'.' :: (f.text ++ r), ?_, ?_⟩))
    · have := while0_run (digits_isDigit w) (hdot (f.text ++ r))
      simpa using this
    · exact preceded_some.2 ⟨_, _, hc _, while1_run (digits_isDigit f) hr (fun h => hf (text_nil.1 h))⟩

/-- Without a point there is no fractional constant. -/
theorem fractionalConstant_none (w : Digits) {r : List Char} (hr : NoHead isDigit r)
    (hp : NoHead (fun d => d = '.') r) : fractionalConstant (w.text ++ r) = none := by
  unfold fractionalConstant
  rw [alt_right]
  · refine recognize_none (map_none ?_)
    by_cases hw : w = []
    · subst hw
      exact pair_none_left (while1_none hr)
    · exact pair_none_right (while1_run (digits_isDigit w) hr fun h => hw (text_nil.1 h)) (char_none hp)
  · refine recognize_none (pair_none_right (while0_run (digits_isDigit w) hr) (map_none ?_))
    exact pair_none_left (char_none hp)

theorem expText_noPoint (e : Option Exp) {r : List Char} (h : Stop r) :
    NoHead (fun d => d = '.') (expText e ++ r) := by
  match e with
  | none =>
    intro c hc
    have := h c hc
    simp only [Bool.or_eq_false_iff, decide_eq_false_iff_not] at this
    simp [this]
  | some e =>
    refine noHead_cons.2 ?_
    cases e.capital <;> decide

/-- The parser reads every number, and all of it. -/
theorem number_text {n : Num} (hn : n.Valid) {r : List Char} (h : Stop r) :
    number (n.text ++ r) = some (r, n.value) := by
  have hv := fromStr_text hn
  have hb := Num.body_head hn r
  obtain ⟨v, hs⟩ := signOpt_text n.sign hb
  have hsplit : n.text ++ r =
      n.sign.text ++ (n.whole.text ++ (fracText n.frac ++ (expText n.exp ++ r))) := by
    simp [Num.text]
  obtain ⟨u, hu⟩ := optExponent_text n.exp hn.exp h
  -- the signed floating point parser, if the constant is read
  have hfloat : (∃ t, floatingPointConstant
      (n.whole.text ++ (fracText n.frac ++ (expText n.exp ++ r))) = some (r, t)) →
      number (n.text ++ r) = some (r, n.value) := by
    rintro ⟨t, ht⟩
    refine alt_left (map_some.2 ⟨n.text, ?_, hv⟩)
    refine recognize_append (a := (v, t)) (pair_some.2 ⟨_, ?_, ht⟩)
    rw [hsplit]
    exact hs
  match hf : n.frac, hfloat with
  | some f, hfloat =>
    apply hfloat
    refine ⟨n.whole.text ++ ('.' :: f.text) ++ expText n.exp, alt_left ?_⟩
    have hd : n.whole ++ f ≠ [] := by have := hn.digits; rwa [hf] at this
    have hc := fractionalConstant_text n.whole f hd (exp_noDigit n.exp r h.digit)
    have := recognize_append (p := pair fractionalConstant (opt exponent))
      (w := n.whole.text ++ ('.' :: f.text) ++ expText n.exp) (r := r)
      (a := (n.whole.text ++ '.' :: f.text, u)) (pair_some.2 ⟨expText n.exp ++ r, by simpa using hc, hu⟩)
    simpa [fracText] using this
  | none, hfloat =>
    have hw : n.whole ≠ [] := by have := hn.digits; simpa [hf] using this
    have hwt : n.whole.text ≠ [] := fun h => hw (text_nil.1 h)
    have hnone : recognize (pair fractionalConstant (opt exponent))
        (n.whole.text ++ (expText n.exp ++ r)) = none :=
      recognize_none (pair_none_left
        (fractionalConstant_none n.whole (exp_noDigit n.exp r h.digit) (expText_noPoint n.exp h)))
    match he : n.exp, hfloat with
    | some e, hfloat =>
      apply hfloat
      refine ⟨n.whole.text ++ e.text, ?_⟩
      rw [he] at hnone
      unfold floatingPointConstant
      simp only [fracText, expText, List.nil_append] at hnone ⊢
      rw [alt_right hnone]
      have := recognize_append (p := pair (while1 isDigit) exponent) (w := n.whole.text ++ e.text) (r := r)
        (a := (n.whole.text, e.text)) (pair_some.2 ⟨e.text ++ r, ?_, exponent_text (hn.exp e he) h.digit⟩)
      · simpa using this
      · have h3 := exp_noDigit (some e) r h.digit
        simpa [expText] using while1_run (digits_isDigit n.whole) h3 hwt
    | none, _ =>
      rw [he] at hnone
      simp only [expText, List.nil_append] at hnone
      have ht : n.text ++ r = n.sign.text ++ (n.whole.text ++ r) := by simp [hsplit, hf, he, fracText, expText]
      rw [hf, he] at hs
      simp only [fracText, expText, List.nil_append] at hs
      unfold number
      rw [alt_right]
      · refine map_some.2 ⟨n.text, ?_, hv⟩
        refine recognize_append (a := (v, n.whole.text)) (pair_some.2 ⟨n.whole.text ++ r, ?_, ?_⟩)
        · rw [ht]; exact hs
        · exact while1_run (digits_isDigit n.whole) h.digit hwt
      · refine map_none (recognize_none ?_)
        rw [ht]
        refine pair_none_right hs ?_
        unfold floatingPointConstant
        rw [alt_right hnone]
        exact recognize_none (pair_none_right (while1_run (digits_isDigit n.whole) h.digit hwt) (exponent_stop h))

/-! ### What the number parser accepts -/

theorem of_signOpt : Reads signOpt fun w _ => ∃ σ : Sign, w = σ.text := by
  refine (reads_oneOf _).opt.mono ?_
  rintro w a (⟨rfl, -⟩ | ⟨c, -, rfl, hc⟩)
  · exact ⟨.none, rfl⟩
  · simp only [List.mem_cons, List.not_mem_nil, or_false] at hc
    rcases hc with rfl | rfl
    · exact ⟨.plus, rfl⟩
    · exact ⟨.minus, rfl⟩

theorem of_while0 : Reads (while0 isDigit) fun w _ => ∃ l : Digits, w = l.text := by
  refine (reads_while0 isDigit).mono ?_
  rintro w a ⟨-, h⟩
  exact of_digits h

theorem of_while1 : Reads (while1 isDigit) fun w _ => ∃ l : Digits, l ≠ [] ∧ w = l.text := by
  refine (reads_while1 isDigit).mono ?_
  rintro w a ⟨-, h0, h⟩
  obtain ⟨l, rfl⟩ := of_digits h
  exact ⟨l, fun h => h0 (text_nil.2 h), rfl⟩

theorem of_exponent : Reads exponent fun w _ => ∃ e : Exp, e.digits ≠ [] ∧ w = e.text := by
  refine ((reads_oneOf _).pair (of_signOpt.pair of_while1)).recognize.mono ?_
  rintro w a ⟨-, v, w1, w2, rfl, ⟨rfl, hc⟩, w3, w4, rfl, ⟨σ, rfl⟩, l, hl, rfl⟩
  simp only [List.mem_cons, List.not_mem_nil, or_false] at hc
  rcases hc with hc | hc
  · exact ⟨⟨false, σ, l⟩, hl, by simp [Exp.text, hc]⟩
  · exact ⟨⟨true, σ, l⟩, hl, by simp [Exp.text, hc]⟩

theorem of_fractionalConstant : Reads fractionalConstant fun w _ =>
    ∃ l f : Digits, l ++ f ≠ [] ∧ w = l.text ++ '.' :: f.text := by
  have h1 := (of_while0.pair ((reads_char '.').preceded of_while1)).recognize
  have h2 := (of_while1.terminated (reads_char '.')).recognize
  refine (h1.alt h2).mono ?_
  rintro w a (⟨-, v, w1, w2, rfl, ⟨l, rfl⟩, w3, w4, rfl, ⟨-, rfl⟩, f, hf, rfl⟩ |
    ⟨-, v, w1, w2, rfl, ⟨l, hl, rfl⟩, -, rfl⟩)
  · exact ⟨l, f, by simp [hf], rfl⟩
  · exact ⟨l, [], by simpa using hl, rfl⟩

/-- What follows the sign. -/
theorem of_floatingPointConstant : Reads floatingPointConstant fun w _ =>
    ∃ n : Num, n.Valid ∧ n.sign = .none ∧ w = n.text := by
  have h1 := (of_fractionalConstant.pair of_exponent.opt).recognize
  have h2 := (of_while1.pair of_exponent).recognize
  refine (h1.alt h2).mono ?_
  rintro w a (⟨-, v, w1, w2, rfl, ⟨l, f, hlf, rfl⟩, ⟨rfl, -⟩ | ⟨-, -, e, he, rfl⟩⟩ |
    ⟨-, v, w1, w2, rfl, ⟨l, hl, rfl⟩, e, he, rfl⟩)
  · exact ⟨⟨.none, l, some f, none⟩, ⟨hlf, by simp⟩, rfl, by simp [Num.text, Sign.text, fracText, expText]⟩
  · exact ⟨⟨.none, l, some f, some e⟩, ⟨hlf, by simpa using he⟩, rfl,
      by simp [Num.text, Sign.text, fracText, expText]⟩
  · exact ⟨⟨.none, l, none, some e⟩, ⟨by simpa using hl, by simpa using he⟩, rfl,
      by simp [Num.text, Sign.text, fracText, expText]⟩

/-- The parser reads a number and returns its value. -/
theorem of_number : Reads number fun w v => ∃ n : Num, n.Valid ∧ w = n.text ∧ v = n.value := by
  have h1 := ((of_signOpt.pair of_floatingPointConstant).recognize).map fromStr
  have h2 := ((of_signOpt.pair of_while1).recognize).map fromStr
  refine (h1.alt h2).mono ?_
  rintro w v (⟨-, ⟨rfl, -, w1, w2, rfl, ⟨σ, rfl⟩, n, hn, hs, rfl⟩, rfl⟩ |
    ⟨-, ⟨rfl, -, w1, w2, rfl, ⟨σ, rfl⟩, l, hl, rfl⟩, rfl⟩)
  · have hv : Num.Valid ⟨σ, n.whole, n.frac, n.exp⟩ := ⟨hn.digits, hn.exp⟩
    have ht : σ.text ++ n.text = Num.text ⟨σ, n.whole, n.frac, n.exp⟩ := by
      simp [Num.text, hs, Sign.text]
    exact ⟨_, hv, ht, by rw [ht, fromStr_text hv]⟩
  · have hv : Num.Valid ⟨σ, l, none, none⟩ := ⟨by simpa using hl, by simp⟩
    have ht : σ.text ++ l.text = Num.text ⟨σ, l, none, none⟩ := by
      simp [Num.text, fracText, expText]
    exact ⟨_, hv, ht, by rw [ht, fromStr_text hv]⟩

end StepperPaths.Svg
