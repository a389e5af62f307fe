import Verif.Spec.ConfigText
import Verif.Proof.SvgNumber

/-! Strings and numbers of JSON. -/

namespace StepperPaths.ConfigText
open Svg StepperPaths.Spec.Svg StepperPaths.Spec.Json

/-! ### White space -/

theorem ws_iff {w : List Char} : Ws w ↔ ∀ c ∈ w, isWs c = true := by
  simp [Ws, isWs, or_assoc]

theorem skipWs_run {w r : List Char} (hw : Ws w) (hr : NoHead isWs r) : skipWs (w ++ r) = r :=
  (takeWhile_run (ws_iff.1 hw) hr).2

theorem of_skipWs (i : List Char) : ∃ w, Ws w ∧ i = w ++ skipWs i := by
  refine ⟨i.takeWhile isWs, ws_iff.2 fun c hc => List.mem_takeWhile_imp hc, ?_⟩
  exact (List.takeWhile_append_dropWhile).symm

theorem Ws.nil : Ws [] := by simp [Ws]

theorem skipWs_noHead (i : List Char) : NoHead isWs (skipWs i) := by
  intro c hc
  have := List.head?_dropWhile_not isWs i
  unfold skipWs at hc
  rw [Option.mem_def] at hc
  rw [hc] at this
  simpa using this

theorem ws_stop {w : List Char} (hw : Ws w) {r : List Char} (hr : Stop r) : Stop (w ++ r) := by
  cases w with
  | nil => exact hr
  | cons c w =>
    refine noHead_cons.2 ?_
    rcases hw c (by simp) with rfl | rfl | rfl | rfl <;> decide

/-! ### Strings -/

theorem hex_char (h : Hex) : hexVal h.char = some h.val := by
  obtain ⟨v, k⟩ := h
  revert v
  cases k <;> decide

theorem of_hex {c : Char} {v : ℕ} (h : hexVal c = some v) : ∃ x : Hex, x.Valid ∧ c = x.char ∧ v = x.val := by
  have key : ∀ a b : Char, a ≤ c ∧ c ≤ b ↔ a.toNat ≤ c.toNat ∧ c.toNat ≤ b.toNat := fun a b => Iff.rfl
  unfold hexVal at h
  simp only [key] at h
  have n0 : '0'.toNat = 48 := rfl
  have n9 : '9'.toNat = 57 := rfl
  have na : 'a'.toNat = 97 := rfl
  have nf : 'f'.toNat = 102 := rfl
  have nA : 'A'.toNat = 65 := rfl
  have nF : 'F'.toNat = 70 := rfl
  simp only [n0, n9, na, nf, nA, nF] at h
  split at h
  · cases h
    refine ⟨⟨⟨c.toNat - 48, by omega⟩, false⟩, fun _ => rfl, ?_, rfl⟩
    simp only [Hex.char]
    rw [if_pos (by omega), show 48 + (c.toNat - 48) = c.toNat by omega, Char.ofNat_toNat]
  · split at h
    · cases h
      refine ⟨⟨⟨c.toNat - 87, by omega⟩, false⟩, fun _ => rfl, ?_, rfl⟩
      simp only [Hex.char]
      rw [if_neg (by omega), if_neg (by simp), show 87 + (c.toNat - 87) = c.toNat by omega, Char.ofNat_toNat]
    · split at h
      · cases h
        refine ⟨⟨⟨c.toNat - 55, by omega⟩, true⟩, fun h => by simp only at h; omega, ?_, rfl⟩
        simp only [Hex.char]
        rw [if_neg (by omega), if_pos trivial, show 55 + (c.toNat - 55) = c.toNat by omega, Char.ofNat_toNat]
      · simp at h

theorem hex4_iff {a b c d : Char} {n : ℕ} : hex4 a b c d = some n ↔
    ∃ x y z w : Hex, (Mark.hex x y z w).Valid ∧ a = x.char ∧ b = y.char ∧ c = z.char ∧ d = w.char ∧ (Mark.hex x y z w).code = some n := by
  constructor
  · intro h
    unfold hex4 at h
    simp only [Option.bind_eq_bind, Option.bind_eq_some_iff, Option.pure_def, Option.some.injEq] at h
    obtain ⟨p, h1, q, h2, r, h3, s, h4, rfl⟩ := h
    obtain ⟨x, v1, rfl, rfl⟩ := of_hex h1
    obtain ⟨y, v2, rfl, rfl⟩ := of_hex h2
    obtain ⟨z, v3, rfl, rfl⟩ := of_hex h3
    obtain ⟨w, v4, rfl, rfl⟩ := of_hex h4
    refine ⟨x, y, z, w, ⟨v1, v2, v3, v4⟩, rfl, rfl, rfl, rfl, ?_⟩
    simp only [Mark.code, Option.some.injEq]
    ring
  · rintro ⟨x, y, z, w, -, rfl, rfl, rfl, rfl, h⟩
    simp only [Mark.code, Option.some.injEq] at h
    simp only [hex4, hex_char, Option.bind_eq_bind, Option.bind_some, Option.pure_def, Option.some.injEq]
    omega

/-- What is read of an element. -/
def toPiece : Mark → Piece
  | .plain c => .char c
  | .short _ c => .char c
  | .hex a b c d => .unit (a.val * 4096 + b.val * 256 + c.val * 16 + d.val)

theorem escape_iff {e c : Char} : escape e = some c ↔ (e, c) ∈ shorts := by
  constructor
  · intro h
    unfold escape at h
    split at h <;> simp at h <;> subst h <;> decide
  · intro h
    simp only [shorts, List.mem_cons, Prod.mk.injEq, List.not_mem_nil, or_false] at h
    rcases h with ⟨rfl, rfl⟩ | ⟨rfl, rfl⟩ | ⟨rfl, rfl⟩ | ⟨rfl, rfl⟩ | ⟨rfl, rfl⟩ | ⟨rfl, rfl⟩ | ⟨rfl, rfl⟩ | ⟨rfl, rfl⟩ <;> rfl

theorem shorts_u {c : Char} : ('u', c) ∉ shorts := by
  simp [shorts]

theorem pieces_text (s : Str) (hs : s.Valid) (r : List Char) :
    pieces (s.flatMap Mark.text ++ '"' :: r) = some (r, s.map toPiece) := by
  induction s with
  | nil => simp [pieces]
  | cons m s ih =>
    have hm := hs m (by simp)
    have ih := ih fun m h => hs m (by simp [h])
    cases m with
    | plain c =>
      obtain ⟨h1, h2, h3⟩ := hm
      simp only [List.flatMap_cons, Mark.text, List.cons_append, List.nil_append]
      rw [pieces, if_neg (by omega), ih]
      · rfl
      · exact h2
      · intro a b c d r' h; exact absurd h h3
      · intro e r' h; exact absurd h h3
      · intro h; exact absurd h h3
    | short e c =>
      simp only [List.flatMap_cons, Mark.text, List.cons_append, List.nil_append]
      rw [pieces, escape_iff.2 hm, ih]
      · rfl
      · rintro a b c' d r' rfl
        exact absurd hm shorts_u
    | hex a b c d =>
      simp only [List.flatMap_cons, Mark.text, List.cons_append, List.nil_append]
      rw [pieces, hex4_iff.2 ⟨a, b, c, d, hm, rfl, rfl, rfl, rfl, rfl⟩, ih]
      rfl

theorem of_pieces : ∀ (i : List Char) (r : List Char) (l : List Piece), pieces i = some (r, l) →
    ∃ s : Str, s.Valid ∧ i = s.flatMap Mark.text ++ '"' :: r ∧ l = s.map toPiece := by
  intro i
  induction i using pieces.induct with
  | case1 => intro r l h; simp [pieces] at h
  | case2 r' =>
    intro r l h
    simp only [pieces, Option.some.injEq, Prod.mk.injEq] at h
    obtain ⟨rfl, rfl⟩ := h
    exact ⟨[], by simp [Str.Valid], by simp, rfl⟩
  | case3 a b c d r' ih =>
    intro r l h
    simp only [pieces, Option.bind_eq_some_iff, Option.map_eq_some_iff] at h
    obtain ⟨n, h1, ⟨r1, l1⟩, h2, h3⟩ := h
    simp only [Prod.mk.injEq] at h3
    obtain ⟨rfl, rfl⟩ := h3
    obtain ⟨s, hs, rfl, rfl⟩ := ih _ _ h2
    obtain ⟨x, y, z, w, hv, rfl, rfl, rfl, rfl, hn⟩ := hex4_iff.1 h1
    refine ⟨.hex x y z w :: s, ?_, by simp [Mark.text], ?_⟩
    · intro m hm
      rcases List.mem_cons.1 hm with rfl | hm
      · exact hv
      · exact hs m hm
    · simp only [Mark.code, Option.some.injEq] at hn
      simp [toPiece, hn]
  | case4 e r' hx ih =>
    intro r l h
    rw [pieces] at h
    · simp only [Option.bind_eq_some_iff, Option.map_eq_some_iff] at h
      obtain ⟨c, h1, ⟨r1, l1⟩, h2, h3⟩ := h
      simp only [Prod.mk.injEq] at h3
      obtain ⟨rfl, rfl⟩ := h3
      obtain ⟨s, hs, rfl, rfl⟩ := ih _ _ h2
      refine ⟨.short e c :: s, ?_, by simp [Mark.text], rfl⟩
      intro m hm
      rcases List.mem_cons.1 hm with rfl | hm
      · exact escape_iff.1 h1
      · exact hs m hm
    · exact hx
  | case5 => intro r l h; simp [pieces] at h
  | case6 c r' h1 h2 h3 h4 hc =>
    intro r l h
    rw [pieces, if_pos hc] at h
    · simp at h
    all_goals assumption
  | case7 c r' h1 h2 h3 h4 hc ih =>
    intro r l h
    rw [pieces, if_neg hc] at h
    · simp only [Option.map_eq_some_iff] at h
      obtain ⟨⟨r1, l1⟩, g2, g3⟩ := h
      simp only [Prod.mk.injEq] at g3
      obtain ⟨rfl, rfl⟩ := g3
      obtain ⟨s, hs, rfl, rfl⟩ := ih _ _ g2
      refine ⟨.plain c :: s, ?_, by simp [Mark.text], rfl⟩
      intro m hm
      rcases List.mem_cons.1 hm with rfl | hm
      · refine ⟨by omega, h1, ?_⟩
        rintro rfl
        cases hq : s.flatMap Mark.text ++ '"' :: r1 with
        | nil => exact h4 rfl hq
        | cons e t => exact h3 e t rfl hq
      · exact hs m hm
    all_goals assumption

theorem code_some {m : Mark} {n : ℕ} (h : m.code = some n) : toPiece m = .unit n ∧ n < 65536 := by
  cases m with
  | plain => simp [Mark.code] at h
  | short => simp [Mark.code] at h
  | hex a b c d =>
    simp only [Mark.code, Option.some.injEq] at h
    refine ⟨by simp [toPiece, h], ?_⟩
    have := a.val.2; have := b.val.2; have := c.val.2; have := d.val.2
    omega

theorem decode_unit (a : ℕ) (l : List Piece) : decode (.unit a :: l) =
    if 0xDC00 ≤ a ∧ a ≤ 0xDFFF then none
    else if a < 0xD800 ∨ 0xDBFF < a then (decode l).map (Char.ofNat a :: ·)
    else
      match l with
      | .unit b :: l =>
        if b < 0xDC00 ∨ 0xDFFF < b then none
        else (decode l).map (Char.ofNat ((a - 0xD800) * 1024 + (b - 0xDC00) + 0x10000) :: ·)
      | _ => none := by
  match l with
  | [] => simp [decode]
  | .char c :: l => simp [decode]
  | .unit b :: l => rw [decode]

theorem decode_says {s : Str} {l : List Char} (h : Says s l) : decode (s.map toPiece) = some l := by
  induction h with
  | nil => rfl
  | plain c h ih => simp [toPiece, decode, ih]
  | short e c h ih => simp [toPiece, decode, ih]
  | basic hm hn h ih =>
    rw [List.map_cons, (code_some hm).1, decode_unit, if_neg (by omega), if_pos (by omega), ih]
    rfl
  | @pair m m' hi lo h1 h2 h3 h4 s l h ih =>
    rw [List.map_cons, List.map_cons, (code_some h1).1, (code_some h2).1, decode_unit, if_neg (by omega),
      if_neg (by omega)]
    simp only
    rw [if_neg (by omega), ih, Option.map_some,
      show 0xD800 + hi - 0xD800 = hi by omega, show 0xDC00 + lo - 0xDC00 = lo by omega,
      show hi * 1024 + lo + 0x10000 = 0x10000 + hi * 1024 + lo by omega]

theorem of_decode : ∀ (n : ℕ) (s : Str) (l : List Char), s.length ≤ n → decode (s.map toPiece) = some l → Says s l := by
  intro n
  induction n with
  | zero =>
    intro s l hn h
    obtain rfl := List.length_eq_zero_iff.1 (Nat.le_zero.1 hn)
    simp only [List.map_nil, decode, Option.some.injEq] at h
    subst h
    exact .nil
  | succ n ih =>
    intro s l hn h
    cases s with
    | nil =>
      simp only [List.map_nil, decode, Option.some.injEq] at h
      subst h
      exact .nil
    | cons m s =>
      replace hn : s.length ≤ n := by simpa using hn
      have key : ∀ k, m.code = some k → Says (m :: s) l := by
        intro k hk
        rw [List.map_cons, (code_some hk).1, decode_unit] at h
        split at h
        · simp at h
        rename_i g1
        split at h
        · rename_i g2
          obtain ⟨l', hl', rfl⟩ := Option.map_eq_some_iff.1 h
          exact .basic hk (by omega) (ih _ _ hn hl')
        · rename_i g2
          cases s with
          | nil => simp at h
          | cons m' s =>
            cases hm' : m'.code with
            | none =>
              cases m' <;> simp [Mark.code, toPiece] at hm' h
            | some b =>
              rw [List.map_cons, (code_some hm').1] at h
              simp only at h
              split at h
              · simp at h
              rename_i g3
              obtain ⟨l', hl', rfl⟩ := Option.map_eq_some_iff.1 h
              have := Says.pair (m := m) (m' := m') (hi := k - 0xD800) (lo := b - 0xDC00)
                (by rw [hk, Nat.add_sub_cancel' (by omega)]) (by rw [hm', Nat.add_sub_cancel' (by omega)])
                (by omega) (by omega) (ih _ _ (by simp at hn; omega) hl')
              rwa [show 0x10000 + (k - 0xD800) * 1024 + (b - 0xDC00) =
                (k - 0xD800) * 1024 + (b - 0xDC00) + 0x10000 by omega] at this
      cases m with
      | plain c =>
        simp only [List.map_cons, toPiece, decode] at h
        obtain ⟨l', hl', rfl⟩ := Option.map_eq_some_iff.1 h
        exact .plain _ (ih _ _ hn hl')
      | short e c =>
        simp only [List.map_cons, toPiece, decode] at h
        obtain ⟨l', hl', rfl⟩ := Option.map_eq_some_iff.1 h
        exact .short _ _ (ih _ _ hn hl')
      | hex a b c d => exact key _ rfl

theorem decode_iff {s : Str} {l : List Char} : decode (s.map toPiece) = some l ↔ Says s l :=
  ⟨of_decode _ s l le_rfl, decode_says⟩

theorem says_unique {s : Str} {l l' : List Char} (h : Says s l) (h' : Says s l') : l = l' :=
  Option.some.inj ((decode_says h).symm.trans (decode_says h'))

/-! ### Numbers -/

theorem digits1_text (d : Digits) (hd : d ≠ []) {r : List Char} (hr : NoHead isDigit r) :
    digits1 (d.text ++ r) = some (r, d.text) := by
  have := takeWhile_run (digits_isDigit d) hr
  simp [digits1, this.1, this.2, text_nil, hd]

theorem of_digits1 {i r w : List Char} (h : digits1 i = some (r, w)) :
    ∃ d : Digits, d ≠ [] ∧ i = d.text ++ r ∧ w = d.text := by
  unfold digits1 at h
  split at h
  · simp at h
  rename_i hne
  simp only [Option.some.injEq, Prod.mk.injEq] at h
  obtain ⟨rfl, rfl⟩ := h
  obtain ⟨d, hd⟩ := of_digits (w := i.takeWhile isDigit) fun c hc => List.mem_takeWhile_imp hc
  refine ⟨d, ?_, ?_, hd⟩
  · rintro rfl
    exact hne hd
  · rw [← hd, List.takeWhile_append_dropWhile]

theorem digitChar_zero {d : Fin 10} : digitChar d = '0' ↔ d = 0 := by revert d; decide

theorem whole_text (d : Digits) (hd : d ≠ []) (h0 : d.head? = some 0 → d = [0]) {r : List Char}
    (hr : NoHead isDigit r) : whole (d.text ++ r) = some (r, d.text) := by
  rw [whole, digits1_text d hd hr, Option.bind_some]
  simp only
  split
  · rename_i c l heq
    exfalso
    match d, heq with
    | [a], heq => simp [Digits.text] at heq
    | a :: b :: d, heq =>
      simp only [Digits.text, List.map_cons, List.cons.injEq] at heq
      have := h0 (by simp [digitChar_zero.1 heq.1])
      simp at this
  · rfl

theorem of_whole {i r w : List Char} (h : whole i = some (r, w)) :
    ∃ d : Digits, d ≠ [] ∧ (d.head? = some 0 → d = [0]) ∧ i = d.text ++ r ∧ w = d.text := by
  obtain ⟨⟨r', w'⟩, h1, h2⟩ := Option.bind_eq_some_iff.1 h
  obtain ⟨d, hd, rfl, rfl⟩ := of_digits1 h1
  simp only at h2
  split at h2
  · simp at h2
  rename_i hx
  simp only [Option.some.injEq, Prod.mk.injEq] at h2
  obtain ⟨rfl, rfl⟩ := h2
  refine ⟨d, hd, ?_, rfl, rfl⟩
  match d, hx with
  | [], _ => simp
  | [a], _ => simp
  | a :: b :: d, hx =>
    intro h
    simp only [List.head?_cons, Option.some.injEq] at h
    subst h
    exact absurd rfl (hx (digitChar b) (Digits.text d))

theorem stop_point {r : List Char} (h : Stop r) {t : List Char} : r ≠ '.' :: t := by
  rintro rfl
  simp [Stop, NoHead] at h

theorem frac_text (f : Option Digits) (hf : ∀ x ∈ f, x ≠ []) {r : List Char} (hd : NoHead isDigit r)
    (hr : NoHead (· = '.') r) : frac (fracText f ++ r) = some (r, fracText f) := by
  cases f with
  | none =>
    simp only [fracText, List.nil_append]
    unfold frac
    split
    · simp [NoHead] at hr
    · rfl
  | some d =>
    simp only [fracText, List.cons_append, frac, digits1_text d (hf d rfl) hd, Option.map_some]

theorem of_frac {i r w : List Char} (h : frac i = some (r, w)) :
    ∃ f : Option Digits, (∀ x ∈ f, x ≠ []) ∧ i = fracText f ++ r ∧ w = fracText f := by
  unfold frac at h
  split at h
  · obtain ⟨⟨r', w'⟩, h1, h2⟩ := Option.map_eq_some_iff.1 h
    obtain ⟨d, hd, rfl, rfl⟩ := of_digits1 h1
    simp only [Prod.mk.injEq] at h2
    obtain ⟨rfl, rfl⟩ := h2
    exact ⟨some d, by simpa using hd, rfl, rfl⟩
  · simp only [Option.some.injEq, Prod.mk.injEq] at h
    obtain ⟨rfl, rfl⟩ := h
    exact ⟨none, by simp, rfl, rfl⟩

theorem digitChar_sign (d : Fin 10) : digitChar d ≠ '+' ∧ digitChar d ≠ '-' := by revert d; decide

theorem expDigits_text (σ : Sign) (d : Digits) (hd : d ≠ []) {r : List Char} (hr : NoHead isDigit r) :
    expDigits (σ.text ++ d.text ++ r) = some (r, σ.text ++ d.text) := by
  cases σ with
  | none =>
    simp only [Sign.text, List.nil_append]
    match d, hd with
    | a :: d, hd =>
      have e : Digits.text (a :: d) ++ r = digitChar a :: (Digits.text d ++ r) := rfl
      rw [← digits1_text _ hd hr, e, expDigits]
      · intro _ h; exact absurd (List.cons.inj h).1 (digitChar_sign a).1
      · intro _ h; exact absurd (List.cons.inj h).1 (digitChar_sign a).2
  | plus => simp [Sign.text, expDigits, digits1_text d hd hr]
  | minus => simp [Sign.text, expDigits, digits1_text d hd hr]

theorem of_expDigits {i r w : List Char} (h : expDigits i = some (r, w)) :
    ∃ (σ : Sign) (d : Digits), d ≠ [] ∧ i = σ.text ++ d.text ++ r ∧ w = σ.text ++ d.text := by
  unfold expDigits at h
  split at h
  · obtain ⟨⟨r', w'⟩, h1, h2⟩ := Option.map_eq_some_iff.1 h
    obtain ⟨d, hd, rfl, rfl⟩ := of_digits1 h1
    simp only [Prod.mk.injEq] at h2
    obtain ⟨rfl, rfl⟩ := h2
    exact ⟨.plus, d, hd, rfl, rfl⟩
  · obtain ⟨⟨r', w'⟩, h1, h2⟩ := Option.map_eq_some_iff.1 h
    obtain ⟨d, hd, rfl, rfl⟩ := of_digits1 h1
    simp only [Prod.mk.injEq] at h2
    obtain ⟨rfl, rfl⟩ := h2
    exact ⟨.minus, d, hd, rfl, rfl⟩
  · obtain ⟨d, hd, rfl, rfl⟩ := of_digits1 h
    exact ⟨.none, d, hd, rfl, rfl⟩

theorem expo_text (e : Option Exp) (he : ∀ x ∈ e, x.digits ≠ []) {r : List Char} (hr : Stop r) :
    expo (expText e ++ r) = some (r, expText e) := by
  cases e with
  | none =>
    simp only [expText, List.nil_append]
    unfold expo
    split
    · simp [Stop, NoHead] at hr
    · simp [Stop, NoHead] at hr
    · rfl
  | some x =>
    obtain ⟨c, σ, d⟩ := x
    have := expDigits_text σ d (he _ rfl) hr.digit
    cases c <;> simp only [expText, Exp.text, List.cons_append, Bool.false_eq_true, if_true, if_false, expo, this,
      Option.map_some]

theorem of_expo {i r w : List Char} (h : expo i = some (r, w)) :
    ∃ e : Option Exp, (∀ x ∈ e, x.digits ≠ []) ∧ i = expText e ++ r ∧ w = expText e := by
  unfold expo at h
  split at h
  · obtain ⟨⟨r', w'⟩, h1, h2⟩ := Option.map_eq_some_iff.1 h
    obtain ⟨σ, d, hd, rfl, rfl⟩ := of_expDigits h1
    simp only [Prod.mk.injEq] at h2
    obtain ⟨rfl, rfl⟩ := h2
    exact ⟨some ⟨false, σ, d⟩, by simpa using hd, by simp [expText, Exp.text], by simp [expText, Exp.text]⟩
  · obtain ⟨⟨r', w'⟩, h1, h2⟩ := Option.map_eq_some_iff.1 h
    obtain ⟨σ, d, hd, rfl, rfl⟩ := of_expDigits h1
    simp only [Prod.mk.injEq] at h2
    obtain ⟨rfl, rfl⟩ := h2
    exact ⟨some ⟨true, σ, d⟩, by simpa using hd, by simp [expText, Exp.text], by simp [expText, Exp.text]⟩
  · simp only [Option.some.injEq, Prod.mk.injEq] at h
    obtain ⟨rfl, rfl⟩ := h
    exact ⟨none, by simp, rfl, rfl⟩

theorem expText_point (e : Option Exp) {r : List Char} (h : Stop r) : NoHead (· = '.') (expText e ++ r) := by
  cases e with
  | none =>
    intro c hc
    have := h c hc
    simp only [Bool.or_eq_false_iff] at this
    exact this.1.1.2
  | some e =>
    refine noHead_cons.2 ?_
    cases e.capital <;> decide

theorem fracText_digit (f : Option Digits) {r : List Char} (h : NoHead isDigit r) :
    NoHead isDigit (fracText f ++ r) := by
  cases f with
  | none => exact h
  | some f => exact noHead_cons.2 (by decide)

theorem unsigned_text (n : Num) (hn : NumValid n) {r : List Char} (hr : Stop r) :
    unsigned (n.whole.text ++ fracText n.frac ++ expText n.exp ++ r) =
      some (r, n.whole.text ++ fracText n.frac ++ expText n.exp) := by
  have he := exp_noDigit n.exp r hr.digit
  unfold unsigned
  simp only [List.append_assoc]
  rw [whole_text n.whole hn.whole hn.zero (fracText_digit _ he)]
  simp only [Option.bind_eq_bind, Option.bind_some]
  rw [frac_text n.frac hn.frac he (expText_point _ hr)]
  simp only [Option.bind_some]
  rw [expo_text n.exp hn.exp hr]
  rfl

theorem of_unsigned {i r w : List Char} (h : unsigned i = some (r, w)) (σ : Sign) (hσ : σ ≠ .plus) :
    ∃ n : Num, NumValid n ∧ n.sign = σ ∧ i = n.whole.text ++ fracText n.frac ++ expText n.exp ++ r ∧
      w = n.whole.text ++ fracText n.frac ++ expText n.exp := by
  unfold unsigned at h
  simp only [Option.bind_eq_bind, Option.bind_eq_some_iff, Option.pure_def, Option.some.injEq, Prod.exists,
    Prod.mk.injEq] at h
  obtain ⟨i1, w1, h1, i2, w2, h2, i3, w3, h3, rfl, rfl⟩ := h
  obtain ⟨d, hd, hz, rfl, rfl⟩ := of_whole h1
  obtain ⟨f, hf, rfl, rfl⟩ := of_frac h2
  obtain ⟨e, he, rfl, rfl⟩ := of_expo h3
  exact ⟨⟨σ, d, f, e⟩, ⟨hσ, hd, hz, hf, he⟩, rfl, by simp, by simp⟩

theorem number_text (n : Num) (hn : NumValid n) {r : List Char} (hr : Stop r) :
    number (n.text ++ r) = some (r, n.text) := by
  have key := unsigned_text n hn hr
  unfold Num.text
  cases hσ : n.sign with
  | plus => exact absurd hσ hn.sign
  | minus =>
    simp only [Sign.text, List.cons_append, List.nil_append, number, key, Option.map_some]
  | none =>
    simp only [Sign.text, List.nil_append]
    have hw := hn.whole
    match hd : n.whole with
    | [] => exact absurd hd hw
    | a :: d =>
      rw [hd] at key
      rw [← key]
      have e : Digits.text (a :: d) ++ fracText n.frac ++ expText n.exp ++ r =
        digitChar a :: (Digits.text d ++ fracText n.frac ++ expText n.exp ++ r) := rfl
      rw [e, number]
      intro _ h; exact absurd (List.cons.inj h).1 (digitChar_sign a).2

theorem of_number {i r w : List Char} (h : number i = some (r, w)) :
    ∃ n : Num, NumValid n ∧ i = n.text ++ r ∧ w = n.text := by
  unfold number at h
  split at h
  · obtain ⟨⟨r', w'⟩, h1, h2⟩ := Option.map_eq_some_iff.1 h
    obtain ⟨n, hn, hs, rfl, rfl⟩ := of_unsigned h1 .minus (by simp)
    simp only [Prod.mk.injEq] at h2
    obtain ⟨rfl, rfl⟩ := h2
    exact ⟨n, hn, by simp [Num.text, hs, Sign.text], by simp [Num.text, hs, Sign.text]⟩
  · obtain ⟨n, hn, hs, rfl, rfl⟩ := of_unsigned h .none (by simp)
    exact ⟨n, hn, by simp [Num.text, hs, Sign.text], by simp [Num.text, hs, Sign.text]⟩

end StepperPaths.ConfigText
