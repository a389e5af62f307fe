import Verif.Proof.CommandLine
import Verif.Model.Control

/-! The numbers on the command line. -/

namespace StepperPaths.Cli
open Spec.Cli Svg Control Spec.Svg

theorem parseDigits_eq (cs : List Char) (a : ℕ) :
    parseDigits a cs = if ∀ c ∈ cs, isDigit c then some (cs.foldl (fun a c => 10 * a + digitVal c) a) else none := by
  induction cs generalizing a with
  | nil => simp [parseDigits]
  | cons c cs ih =>
    have hd : isDigit c = true ↔ '0' ≤ c ∧ c ≤ '9' := by simp [isDigit]
    by_cases h : '0' ≤ c ∧ c ≤ '9'
    · have h' := hd.2 h
      simp only [parseDigits, h, and_self, if_true, ih, List.mem_cons, forall_eq_or_imp, h', true_and, List.foldl_cons,
        digitVal]
    · have h' : ¬ isDigit c = true := fun e => h (hd.1 e)
      simp [parseDigits, h, h']

theorem parseNat_iff (cs : List Char) (n : ℕ) :
    parseNat cs = some n ↔ ∃ d : Digits, d ≠ [] ∧ cs = d.text ∧ n = d.val := by
  constructor
  · intro h
    cases cs with
    | nil => simp [parseNat] at h
    | cons c cs =>
      simp only [parseNat, parseDigits_eq] at h
      split at h
      · rename_i hd
        obtain ⟨d, hd⟩ := of_digits hd
        refine ⟨d, ?_, hd, ?_⟩
        · rintro rfl
          simp [Digits.text] at hd
        · rw [Option.some.injEq] at h
          rw [← h, hd, ← digitsVal_text]
          rfl
      · simp at h
  · rintro ⟨d, h0, rfl, rfl⟩
    obtain ⟨c, cs, e⟩ : ∃ c cs, d.text = c :: cs := by
      cases h : d.text with
      | nil => exact absurd (text_nil.1 h) h0
      | cons c cs => exact ⟨c, cs, rfl⟩
    have hd : ∀ c ∈ d.text, isDigit c := digits_isDigit d
    rw [e, parseNat, ← e, parseDigits_eq, if_pos hd, ← digitsVal_text]
    · rfl
    · simp

theorem digit_notSign (d : Digits) (h0 : d ≠ []) : ∀ r : List Char, d.text ≠ '-' :: r ∧ d.text ≠ '+' :: r := by
  intro r
  cases d with
  | nil => exact absurd rfl h0
  | cons x d =>
    have := notSign_digit x
    simp only [Bool.or_eq_false_iff, decide_eq_false_iff_not] at this
    constructor <;> intro e <;> simp only [Digits.text, List.map_cons, List.cons.injEq] at e
    · exact this.2 e.1
    · exact this.1 e.1

theorem parseI64_iff (s : List Char) (n : ℤ) :
    parseI64 s = some n ↔ (∃ (σ : Sign) (d : Digits), d ≠ [] ∧ s = σ.text ++ d.text ∧ n = σ.val * d.val) ∧
      i64Min ≤ n ∧ n ≤ i64Max := by
  unfold parseI64
  simp only [Option.filter_eq_some_iff, decide_eq_true_eq]
  refine and_congr_left fun _ => ?_
  split
  · rename_i cs
    simp only [Option.map_eq_some_iff, parseNat_iff]
    constructor
    · rintro ⟨k, ⟨d, h0, rfl, rfl⟩, rfl⟩
      exact ⟨.minus, d, h0, rfl, by simp [Sign.val]⟩
    · rintro ⟨σ, d, h0, e, rfl⟩
      cases σ with
      | minus =>
        simp only [Sign.text, List.cons_append, List.nil_append, List.cons.injEq, true_and] at e
        exact ⟨d.val, ⟨d, h0, e, rfl⟩, by simp [Sign.val]⟩
      | plus => simp [Sign.text] at e
      | none => exact absurd e.symm (digit_notSign d h0 _).1
  · rename_i cs
    simp only [Option.map_eq_some_iff, parseNat_iff]
    constructor
    · rintro ⟨k, ⟨d, h0, rfl, rfl⟩, rfl⟩
      exact ⟨.plus, d, h0, rfl, by simp [Sign.val]⟩
    · rintro ⟨σ, d, h0, e, rfl⟩
      cases σ with
      | plus =>
        simp only [Sign.text, List.cons_append, List.nil_append, List.cons.injEq, true_and] at e
        exact ⟨d.val, ⟨d, h0, e, rfl⟩, by simp [Sign.val]⟩
      | minus => simp [Sign.text] at e
      | none => exact absurd e.symm (digit_notSign d h0 _).2
  · rename_i h1 h2
    simp only [Option.map_eq_some_iff, parseNat_iff]
    constructor
    · rintro ⟨k, ⟨d, h0, rfl, rfl⟩, rfl⟩
      exact ⟨.none, d, h0, rfl, by simp [Sign.val]⟩
    · rintro ⟨σ, d, h0, e, rfl⟩
      cases σ with
      | plus => exact absurd e (h2 _)
      | minus => exact absurd e (h1 _)
      | none => exact ⟨d.val, ⟨d, h0, e, rfl⟩, by simp [Sign.val]⟩

theorem parseI32_iff (s : Arg) (n : ℤ) : parseI32 s = some n ↔ IntText s n := by
  unfold parseI32 IntText
  simp only [Option.filter_eq_some_iff, decide_eq_true_eq, parseI64_iff, i64Min, i64Max]
  constructor
  · rintro ⟨⟨⟨σ, d, h0, e, hn⟩, -⟩, h1, h2⟩
    exact ⟨σ, d, h0, e, hn, by omega, by omega⟩
  · rintro ⟨σ, d, h0, e, hn, h1, h2⟩
    exact ⟨⟨⟨σ, d, h0, e, hn⟩, by omega, by omega⟩, by omega, by omega⟩

/-! ### Floating point numbers -/

theorem splitSign_only (s : List Char) : ∃ σ : Sign, s = σ.text ++ (splitSign s).2 ∧
    (splitSign s).1 = decide (σ.val = -1) := by
  unfold splitSign
  split
  · exact ⟨.minus, rfl, rfl⟩
  · exact ⟨.plus, rfl, rfl⟩
  · exact ⟨.none, rfl, rfl⟩

theorem isExponent_iff (s : List Char) :
    isExponent s = true ↔ ∃ e : Option Exp, (∀ x ∈ e, x.digits ≠ []) ∧ s = expText e := by
  cases s with
  | nil => exact ⟨fun _ => ⟨none, by simp, rfl⟩, fun _ => rfl⟩
  | cons c r =>
    constructor
    · intro h
      simp only [isExponent, Bool.and_eq_true, Bool.or_eq_true, decide_eq_true_eq] at h
      obtain ⟨⟨hc, h0⟩, hd⟩ := h
      obtain ⟨σ, hσ, -⟩ := splitSign_only r
      obtain ⟨d, hd⟩ := of_digits (List.all_eq_true.1 hd)
      have h0' : d ≠ [] := by
        rintro rfl
        rw [hd] at h0
        exact h0 rfl
      refine ⟨some ⟨decide (c = 'E'), σ, d⟩, by simpa using h0', ?_⟩
      rw [hσ, hd]
      rcases hc with rfl | rfl <;> rfl
    · rintro ⟨e, he, h⟩
      cases e with
      | none => simp [expText] at h
      | some e =>
        obtain ⟨cap, σ, d⟩ := e
        have h0 : d ≠ [] := he _ rfl
        simp only [expText, Exp.text, List.cons.injEq] at h
        obtain ⟨hc, rfl⟩ := h
        have hn := digits_head (f := fun c => c = '+' || c = '-') d [] h0 notSign_digit
        rw [List.append_nil] at hn
        have hs := splitSign_text σ hn
        simp only [isExponent, hs, Bool.and_eq_true, Bool.or_eq_true, decide_eq_true_eq]
        refine ⟨⟨?_, fun e => h0 (text_nil.1 e)⟩, List.all_eq_true.2 (digits_isDigit d)⟩
        cases cap <;> simp [hc]

theorem splitFrac_only (s : List Char) (hs : NoHead isDigit s) : ∃ f : Option Digits,
    s = fracText f ++ (splitFrac s).2 ∧ (splitFrac s).1 = Digits.text (f.getD []) := by
  unfold splitFrac
  split
  · rename_i r
    obtain ⟨f, hf⟩ := of_digits (w := r.takeWhile isDigit) fun c hc => List.mem_takeWhile_imp hc
    refine ⟨some f, ?_, hf⟩
    simp only [fracText, ← hf, List.cons_append, List.takeWhile_append_dropWhile]
  · exact ⟨none, rfl, rfl⟩

theorem body_word {w : Digits} {f : Option Digits} (h : w ++ f.getD [] ≠ []) (r : List Char) :
    ∀ t : List Char, (w.text ++ (fracText f ++ r)).map Char.toLower ≠ 'i' :: t ∧
      (w.text ++ (fracText f ++ r)).map Char.toLower ≠ 'n' :: t := by
  intro t
  have hd : ∀ d : Fin 10, (digitChar d).toLower ≠ 'i' ∧ (digitChar d).toLower ≠ 'n' := by decide
  cases w with
  | cons x w =>
    constructor <;> intro e <;> simp only [Digits.text, List.map_cons, List.cons_append, List.cons.injEq] at e
    · exact (hd x).1 e.1
    · exact (hd x).2 e.1
  | nil =>
    cases f with
    | none => simp at h
    | some f =>
      have hp : ('.').toLower ≠ 'i' ∧ ('.').toLower ≠ 'n' := by decide
      constructor <;> intro e <;> simp only [Digits.text, List.map_nil, List.nil_append, fracText,
        List.cons_append, List.map_cons, List.cons.injEq] at e
      · exact hp.1 e.1
      · exact hp.2 e.1

theorem parseF64_text {n : Num} (hn : n.Valid) : parseF64 n.text = some (.finite n.value) := by
  have hv := fromStr_text hn
  obtain ⟨σ, w, f, e⟩ := n
  have h0 := Num.body_head hn []
  have h1 : Num.text ⟨σ, w, f, e⟩ = σ.text ++ (w.text ++ (fracText f ++ expText e)) := by
    simp [Num.text]
  have h2 := takeWhile_run (digits_isDigit w)
    (by simpa using fracExp_noDigit f e [] (by simp [NoHead]))
  simp only [List.append_nil] at h0 h2
  have hw := body_word hn.digits (expText e)
  have ha : ¬ ((w.text ++ (fracText f ++ expText e)).map Char.toLower = "inf".toList ∨
      (w.text ++ (fracText f ++ expText e)).map Char.toLower = "infinity".toList) := by
    rintro (h | h)
    · exact (hw _).1 h
    · exact (hw _).1 h
  have hb : ¬ (w.text ++ (fracText f ++ expText e)).map Char.toLower = "nan".toList := (hw _).2
  have hc : w.text ++ Digits.text (f.getD []) ≠ [] := by
    rw [← text_append]
    exact fun h => hn.digits (text_nil.1 h)
  have hd : isExponent (expText e) = true := (isExponent_iff _).2 ⟨e, hn.exp, rfl⟩
  rw [← hv]
  conv_lhs => rw [h1]
  unfold parseF64
  simp only [splitSign_text σ h0, if_neg ha, if_neg hb, h2, splitFrac_text]
  rw [if_pos ⟨hc, hd⟩, h1]

theorem parseF64_finite {s : Arg} {q : ℚ} (h : parseF64 s = some (.finite q)) :
    ∃ n : Num, n.Valid ∧ s = n.text ∧ q = n.value := by
  unfold parseF64 at h
  obtain ⟨σ, hσ, -⟩ := splitSign_only s
  generalize hs : splitSign s = p at h hσ
  obtain ⟨neg, s1⟩ := p
  simp only at h hσ
  split at h
  · simp at h
  split at h
  · simp at h
  split at h
  · rename_i hc
    obtain ⟨w, hw⟩ := of_digits (w := s1.takeWhile isDigit) fun c hc => List.mem_takeWhile_imp hc
    obtain ⟨f, hf, hf2⟩ := splitFrac_only (s1.dropWhile isDigit) (by
      intro c hc
      have := List.head?_dropWhile_not isDigit s1
      rw [hc] at this
      simpa using this)
    obtain ⟨e, he, he2⟩ := (isExponent_iff _).1 hc.2
    have ht : s = Num.text ⟨σ, w, f, e⟩ := by
      rw [hσ, ← List.takeWhile_append_dropWhile (p := isDigit) (l := s1), hw, hf, he2]
      simp [Num.text]
    have hv : Num.Valid ⟨σ, w, f, e⟩ := ⟨by
      intro h0
      apply hc.1
      rw [hw, hf2, ← text_append]
      exact text_nil.2 h0, he⟩
    refine ⟨_, hv, ht, ?_⟩
    simp only [Option.some.injEq, F64.finite.injEq] at h
    rw [← h, ← fromStr_text hv, ← ht]
  · simp at h

theorem parseF64_iff (s : Arg) (q : ℚ) :
    parseF64 s = some (.finite q) ↔ ∃ n : Num, n.Valid ∧ s = n.text ∧ q = n.value :=
  ⟨parseF64_finite, by rintro ⟨n, hn, rfl, rfl⟩; exact parseF64_text hn⟩

/-- A word is not read as a decimal number: it is infinite or not a number. -/
theorem parseF64_word {s : Arg} (h : NotFinite s) : ∃ v, parseF64 s = some v ∧ v.value = none := by
  obtain ⟨σ, w, rfl, hw⟩ := h
  have hn : NoHead (fun c => c = '+' || c = '-') w := by
    intro c hc
    cases w with
    | nil => simp at hc
    | cons d w =>
      simp only [List.head?_cons, Option.mem_def, Option.some.injEq] at hc
      subst hc
      by_contra hd
      simp only [Bool.or_eq_false_iff, decide_eq_false_iff_not, not_and_or, not_not] at hd
      rcases hd with rfl | rfl <;> simp at hw <;> revert hw <;> decide
  unfold parseF64
  simp only [splitSign_text σ hn]
  simp only [List.mem_cons, List.not_mem_nil, or_false] at hw
  rcases hw with h | h | h
  · rw [if_pos (.inl h)]
    exact ⟨_, rfl, rfl⟩
  · rw [if_pos (.inr h)]
    exact ⟨_, rfl, rfl⟩
  · rw [if_neg (by rw [h]; decide), if_pos (show _ = "nan".toList from h)]
    exact ⟨_, rfl, rfl⟩

theorem parseF64_some (s : Arg) : (∃ v, parseF64 s = some v) ↔ FloatText s := by
  constructor
  · rintro ⟨v, h⟩
    cases hv : v.value with
    | some q =>
      cases v with
      | finite q' =>
        obtain ⟨n, h1, h2, -⟩ := parseF64_finite h
        exact .inl ⟨n, h1, h2⟩
      | infinite b => simp [F64.value] at hv
      | nan => simp [F64.value] at hv
    | none =>
      right
      obtain ⟨σ, hσ, -⟩ := splitSign_only s
      unfold parseF64 at h
      generalize hs : splitSign s = p at h hσ
      obtain ⟨neg, s1⟩ := p
      simp only at h hσ
      refine ⟨σ, s1, hσ, ?_⟩
      split at h
      · rename_i hc
        rcases hc with hc | hc <;> rw [hc] <;> decide
      · split at h
        · rename_i hc
          rw [hc]
          decide
        · split at h
          · simp only [Option.some.injEq] at h
            rw [← h] at hv
            simp [F64.value] at hv
          · simp at h
  · rintro (⟨n, hn, rfl⟩ | h)
    · exact ⟨_, parseF64_text hn⟩
    · obtain ⟨v, h, -⟩ := parseF64_word h
      exact ⟨v, h⟩

end StepperPaths.Cli
