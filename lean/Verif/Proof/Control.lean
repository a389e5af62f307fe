import Verif.Spec.Wire
import Mathlib.Data.Nat.Digits.Lemmas
import Mathlib.Tactic.IntervalCases

/-! Lemmas about the serial protocol. -/

namespace StepperPaths.Control
open Context Spec

/-! ### Numbers -/

theorem digitChar_spec : ∀ d < 10, (Nat.digitChar d).isDigit = true ∧ (Nat.digitChar d).toNat - 48 = d ∧
    Nat.digitChar d ≠ '\n' ∧ Nat.digitChar d ≠ ',' ∧ Nat.digitChar d ≠ '-' ∧ Nat.digitChar d ≠ '+' ∧
    '0' ≤ Nat.digitChar d ∧ Nat.digitChar d ≤ '9' := by decide

theorem showNat_chars (n : Nat) : ∀ c ∈ showNat n, c.isDigit = true ∧ c ≠ '\n' ∧ c ≠ ',' ∧ c ≠ '-' ∧ c ≠ '+' := by
  intro c hc
  unfold showNat at hc
  split at hc
  · simp at hc
    subst hc
    decide
  · simp only [List.mem_map, List.mem_reverse] at hc
    obtain ⟨d, hd, rfl⟩ := hc
    have := digitChar_spec d (Nat.digits_lt_base (by norm_num) hd)
    exact ⟨this.1, this.2.2.1, this.2.2.2.1, this.2.2.2.2.1, this.2.2.2.2.2.1⟩

theorem showNat_ne_nil (n : Nat) : showNat n ≠ [] := by
  unfold showNat
  split
  · simp
  · next h => simp [Nat.digits_eq_nil_iff_eq_zero, h]

theorem foldl_digits (l : List Nat) (h : ∀ d ∈ l, d < 10) :
    (l.reverse.map Nat.digitChar).foldl (fun n c => 10 * n + (c.toNat - 48)) 0 = Nat.ofDigits 10 l := by
  induction l with
  | nil => rfl
  | cons d l ih =>
    rw [List.reverse_cons, List.map_append, List.foldl_append, ih (fun x hx => h x (List.mem_cons_of_mem _ hx))]
    simp only [List.map_cons, List.map_nil, List.foldl_cons, List.foldl_nil]
    rw [(digitChar_spec d (h d List.mem_cons_self)).2.1, Nat.ofDigits_cons]
    omega

theorem showNat_value (n : Nat) :
    (showNat n).foldl (fun n c => 10 * n + (c.toNat - 48)) 0 = n := by
  unfold showNat
  split
  · next h => rw [h]; decide
  · rw [foldl_digits _ (fun d hd => Nat.digits_lt_base (by norm_num) hd), Nat.ofDigits_digits]

theorem readNat_showNat (n : Nat) : readNat (showNat n) = some n := by
  unfold readNat
  rw [if_pos, showNat_value]
  refine ⟨showNat_ne_nil n, ?_⟩
  rw [List.all_eq_true]
  exact fun c hc => (showNat_chars n c hc).1

theorem readInt_showInt (n : Int) : readInt (showInt n) = some n := by
  unfold showInt
  split
  · simp only [readInt, readNat_showNat, Option.map_some]
    congr 1
    omega
  · have : readInt (showNat n.natAbs) = (readNat (showNat n.natAbs)).map fun n : Nat => (n : Int) := by
      cases h : showNat n.natAbs with
      | nil => rfl
      | cons c cs =>
        have hc := showNat_chars n.natAbs c (by rw [h]; simp)
        unfold readInt
        split
        · next heq => cases heq; exact absurd rfl hc.2.2.2.1
        · next heq => cases heq; exact absurd rfl hc.2.2.2.2
        · rfl
    rw [this, readNat_showNat, Option.map_some]
    congr 1
    omega

theorem showInt_chars (n : Int) : ∀ c ∈ showInt n, c ≠ '\n' ∧ c ≠ ',' := by
  intro c hc
  unfold showInt at hc
  split at hc
  · rcases List.mem_cons.1 hc with rfl | hc
    · decide
    · have := showNat_chars _ c hc
      exact ⟨this.2.1, this.2.2.1⟩
  · have := showNat_chars _ c hc
    exact ⟨this.2.1, this.2.2.1⟩

/-! ### Fields and lines -/

theorem fields_one {l : List Char} (h : ∀ c ∈ l, c ≠ ',') : fields l = [l] := by
  induction l with
  | nil => rfl
  | cons c l ih =>
    simp only [fields, if_neg (h c List.mem_cons_self), ih fun x hx => h x (List.mem_cons_of_mem _ hx)]

theorem fields_cons {l k : List Char} (h : ∀ c ∈ l, c ≠ ',') : fields (l ++ ',' :: k) = l :: fields k := by
  induction l with
  | nil => simp [fields]
  | cons c l ih =>
    simp only [List.cons_append, fields, if_neg (h c List.mem_cons_self),
      ih fun x hx => h x (List.mem_cons_of_mem _ hx)]

/-- The text of a command without its end of line. -/
def cmdLine (t : Int) : Command → List Char
  | .acc ch a => 'A' :: (showNat (channelNumber ch) ++ ',' :: (showInt t ++ ',' :: showInt a))
  | .weight w => 'L' :: (showInt t ++ ',' :: showInt w)

theorem cmdText_eq (t : Int) (c : Command) : cmdText t c = cmdLine t c ++ ['\n'] := by
  cases c <;> simp [cmdText, cmdLine]

theorem cmdLine_newline (t : Int) (c : Command) : '\n' ∉ cmdLine t c := by
  have h1 := fun n => mt (showInt_chars n '\n') (by simp)
  have h2 := fun n => mt (showNat_chars n '\n') (by simp)
  cases c <;> simp [cmdLine, h1, h2]

theorem decode_cmdLine (t : Int) (c : Command) : decodeLine (cmdLine t c) = some ⟨t, c⟩ := by
  have nc : ∀ n, ∀ c ∈ showInt n, c ≠ ',' := fun n c hc => (showInt_chars n c hc).2
  have nn : ∀ n, ∀ c ∈ showNat n, c ≠ ',' := fun n c hc => (showNat_chars n c hc).2.2.1
  cases c with
  | acc ch a =>
    simp only [cmdLine, decodeLine, fields_cons (nn _), fields_cons (nc _), fields_one (nc _),
      readNat_showNat, readInt_showInt, Option.bind_eq_bind, Option.bind_some]
    cases ch <;> rfl
  | weight w =>
    simp only [cmdLine, decodeLine, fields_cons (nc _), fields_one (nc _), readInt_showInt,
      Option.bind_eq_bind, Option.bind_some]
    rfl

theorem splitLines_cons {l k : List Char} (h : '\n' ∉ l) :
    splitLines (l ++ '\n' :: k) = (l :: (splitLines k).1, (splitLines k).2) := by
  induction l with
  | nil => simp [splitLines]
  | cons c l ih =>
    have hc : c ≠ '\n' := fun hc => h (by simp [hc])
    simp only [List.cons_append, splitLines, ih (fun hx => h (List.mem_cons_of_mem _ hx)), if_neg hc]

theorem splitLines_none {l : List Char} (h : '\n' ∉ l) : splitLines l = ([], l) := by
  induction l with
  | nil => rfl
  | cons c l ih =>
    have hc : c ≠ '\n' := fun hc => h (by simp [hc])
    simp only [splitLines, ih (fun hx => h (List.mem_cons_of_mem _ hx)), if_neg hc]

theorem splitLines_lines {ls : List (List Char)} (h : ∀ l ∈ ls, '\n' ∉ l) {k : List Char} (hk : '\n' ∉ k) :
    splitLines (ls.flatMap (· ++ ['\n']) ++ k) = (ls, k) := by
  induction ls with
  | nil => exact splitLines_none hk
  | cons l ls ih =>
    rw [List.flatMap_cons, List.append_assoc, List.append_assoc, List.singleton_append,
      splitLines_cons (h l List.mem_cons_self), ih fun x hx => h x (List.mem_cons_of_mem _ hx)]

/-! ### Reading -/

theorem received_append (input : Nat → ReadOutcome) (n a b : Nat) :
    received input n (a + b) = received input n a ++ received input (n + a) b := by
  induction a generalizing n with
  | zero => simp [received]
  | succ a ih =>
    rw [Nat.add_right_comm, received, ih, received, List.append_assoc, Nat.add_right_comm n 1 a]
    rfl

/-- The port after it has been read from. -/
structure ReadTo (p p' : Port) (bytes : List Char) : Prop where
  input : p'.input = p.input
  ok : p'.writeOk = p.writeOk
  writes : p'.writes = p.writes
  log : p'.log = p.log ++ bytes.map .got
  reads : ∃ k, p'.reads = p.reads + k ∧ received p.input p.reads k = bytes

theorem ReadTo.cons {p p' : Port} {bs : List Char} (h : ReadTo p.read.2 p' bs) :
    ReadTo p p' (received p.input p.reads 1 ++ bs) := by
  obtain ⟨h1, h2, h3, h4, k, h5, h6⟩ := h
  refine ⟨h1, h2, h3, ?_, k + 1, ?_, ?_⟩
  · rw [h4]
    simp only [Port.read, received]
    cases p.input p.reads <;> simp
  · rw [h5]
    simp only [Port.read]
    omega
  · rw [Nat.add_comm, received_append, ← h6]
    rfl

theorem readLoop_spec (p : Port) (reply : List Char) (r : Except IoError (List Char)) (p' : Port)
    (h : readLoop p reply = some (r, p')) :
    ∃ bs, '\n' ∉ bs ∧ ((r = .ok (reply ++ bs) ∧ ReadTo p p' (bs ++ ['\n'])) ∨
      (∃ code, r = .error (.read code) ∧ ReadTo p p' bs)) := by
  refine readLoop.partial_correctness (fun p reply (res : _ × _) => ∃ bs, '\n' ∉ bs ∧
    ((res.1 = .ok (reply ++ bs) ∧ ReadTo p res.2 (bs ++ ['\n'])) ∨
      (∃ code, res.1 = .error (.read code) ∧ ReadTo p res.2 bs))) ?_ p reply (r, p') h
  clear h r p' reply p
  intro f ih p reply res h
  have hr : p.read.1 = p.input p.reads := rfl
  have here : ∀ q, ReadTo q q [] := fun q => ⟨rfl, rfl, rfl, by simp, 0, rfl, rfl⟩
  have next := (here p.read.2).cons
  generalize hq : p.read = q at h hr next
  obtain ⟨o, q⟩ := q
  simp only at hr next
  subst hr
  have later : ∀ {p' bs}, ReadTo q p' bs → ReadTo p p' (received p.input p.reads 1 ++ bs) :=
    fun h => ReadTo.cons (by rw [hq]; exact h)
  cases hi : p.input p.reads with
  | byte b =>
    have hone : received p.input p.reads 1 = [b] := by simp [received, hi]
    simp only [hone, List.singleton_append] at later next
    simp only [hi] at h
    by_cases hb : b = '\n'
    · rw [if_pos hb] at h
      cases h
      exact ⟨[], by simp, .inl ⟨by simp, by simpa [hb] using next⟩⟩
    · rw [if_neg hb] at h
      obtain ⟨bs, h0, h1⟩ := ih _ _ _ h
      refine ⟨b :: bs, by simp [Ne.symm hb, h0], ?_⟩
      rcases h1 with ⟨h1, h2⟩ | ⟨code, h1, h2⟩
      · exact .inl ⟨by simp [h1], later h2⟩
      · exact .inr ⟨code, h1, later h2⟩
  | empty =>
    have hone : received p.input p.reads 1 = [] := by simp [received, hi]
    simp only [hone, List.nil_append] at later
    simp only [hi] at h
    obtain ⟨bs, h0, h1⟩ := ih _ _ _ h
    refine ⟨bs, h0, ?_⟩
    rcases h1 with ⟨h1, h2⟩ | ⟨code, h1, h2⟩
    · exact .inl ⟨h1, later h2⟩
    · exact .inr ⟨code, h1, later h2⟩
  | timedOut =>
    have hone : received p.input p.reads 1 = [] := by simp [received, hi]
    simp only [hone, List.nil_append] at later
    simp only [hi] at h
    obtain ⟨bs, h0, h1⟩ := ih _ _ _ h
    refine ⟨bs, h0, ?_⟩
    rcases h1 with ⟨h1, h2⟩ | ⟨code, h1, h2⟩
    · exact .inl ⟨h1, later h2⟩
    · exact .inr ⟨code, h1, later h2⟩
  | error code =>
    have hone : received p.input p.reads 1 = [] := by simp [received, hi]
    simp only [hone, List.nil_append] at next
    simp only [hi] at h
    cases h
    exact ⟨[], by simp, .inr ⟨code, rfl, next⟩⟩

/-- Without a byte or an error `read_reply` never returns. -/
theorem readLoop_silent (p : Port) (reply : List Char)
    (h : ∀ n, p.reads ≤ n → p.input n = .empty ∨ p.input n = .timedOut) : readLoop p reply = none := by
  cases hc : readLoop p reply with
  | none => rfl
  | some res =>
    refine (readLoop.partial_correctness (fun p _ _ =>
      (∀ n, p.reads ≤ n → p.input n = .empty ∨ p.input n = .timedOut) → False) ?_ p reply res hc h).elim
    clear hc h res reply p
    intro f ih p reply res h hs
    rcases hs p.reads le_rfl with hr | hr <;>
    · simp only [Port.read, hr] at h
      exact ih _ _ _ h fun n hn => hs n (by simp only at hn; omega)

theorem delivers_nil {input : Nat → ReadOutcome} {n m : Nat} (h : Delivers input n [] m) : m = n := by
  cases h
  rfl

/-- A read that reaches the end of a line. -/
theorem readLoop_delivers {p : Port} {line reply : List Char} {m : Nat} (hl : '\n' ∉ line)
    (h : Delivers p.input p.reads (line ++ ['\n']) m) :
    readLoop p reply = some (.ok (reply ++ line),
      { p with reads := m, log := p.log ++ (line ++ ['\n']).map .got }) := by
  generalize hn : p.reads = n at h
  generalize hin : p.input = inp at h
  generalize ht : line ++ ['\n'] = text at h
  induction h generalizing p line reply with
  | nil => simp at ht
  | skip hs _ ih =>
    subst hn hin
    rw [readLoop]
    have := ih (p := { p with reads := p.reads + 1 }) (reply := reply) hl rfl rfl ht
    rcases hs with hs | hs <;>
    · simp only [Port.read, hs, List.append_nil]
      exact this
  | @byte n m b text hs hd ih =>
    subst hn hin
    rw [readLoop]
    simp only [Port.read, hs]
    cases line with
    | nil =>
      simp only [List.nil_append, List.cons.injEq] at ht
      obtain ⟨rfl, rfl⟩ := ht
      rw [if_pos rfl]
      simp [delivers_nil hd]
    | cons c line =>
      simp only [List.cons_append, List.cons.injEq] at ht
      obtain ⟨rfl, ht⟩ := ht
      rw [if_neg (fun hb => hl (by simp [hb]))]
      have := ih (p := { p with reads := p.reads + 1, log := p.log ++ [.got c] }) (line := line)
        (reply := reply ++ [c]) (fun hx => hl (List.mem_cons_of_mem _ hx)) rfl rfl ht
      rw [this]
      simp

/-! ### Playing -/

/-- The command lines for the events. -/
def eventLines (t : Int) : List Event → List (List Char)
  | [] => []
  | e :: es => cmdLine (t + e.ticks) e.cmd :: eventLines (t + e.ticks) es

theorem decode_eventLines (t : Int) (es : List Event) :
    (eventLines t es).map decodeLine = (absolute t es).map some := by
  induction es generalizing t with
  | nil => rfl
  | cons e es ih => simp [eventLines, absolute, decode_cmdLine, ih]

theorem eventLines_newline (t : Int) (es : List Event) : ∀ l ∈ eventLines t es, '\n' ∉ l := by
  induction es generalizing t with
  | nil => simp [eventLines]
  | cons e es ih =>
    intro l hl
    rcases List.mem_cons.1 hl with rfl | hl
    · exact cmdLine_newline _ _
    · exact ih _ l hl

theorem cmdsText_eq (t : Int) (es : List Event) :
    cmdsText t es = (eventLines t es).flatMap (· ++ ['\n']) := by
  induction es generalizing t with
  | nil => rfl
  | cons e es ih => simp [cmdsText, eventLines, cmdText_eq, ih]

/-- Some exchange with the port that leaves the log `acts`. -/
structure Moved (p p' : Port) (acts : List Act) : Prop where
  input : p'.input = p.input
  log : p'.log = p.log ++ acts
  reads : ∃ k, p'.reads = p.reads + k ∧ received p.input p.reads k = gotText acts

theorem Moved.refl (p : Port) : Moved p p [] := ⟨rfl, by simp, 0, rfl, rfl⟩

theorem gotText_append (a b : List Act) : gotText (a ++ b) = gotText a ++ gotText b := by
  simp [gotText]

theorem Moved.trans {p q r : Port} {a b : List Act} (h : Moved p q a) (h' : Moved q r b) :
    Moved p r (a ++ b) := by
  obtain ⟨h1, h2, k, h3, h4⟩ := h
  obtain ⟨g1, g2, j, g3, g4⟩ := h'
  refine ⟨g1.trans h1, by rw [g2, h2, List.append_assoc], k + j, by omega, ?_⟩
  rw [received_append, gotText_append, h4, ← g4, h3, h1]

theorem write_moved {p p' : Port} {s : List Char} (h : p.write s = some p') : Moved p p' [.sent s] := by
  unfold Port.write at h
  split at h
  · cases h
    exact ⟨rfl, rfl, 0, rfl, rfl⟩
  · cases h

theorem gotText_got (bs : List Char) : gotText (bs.map .got) = bs := by
  induction bs with
  | nil => rfl
  | cons b bs ih =>
    simp only [gotText, List.map_cons, List.flatMap_cons] at ih ⊢
    rw [ih]
    rfl

theorem ReadTo.moved {p p' : Port} {bs : List Char} (h : ReadTo p p' bs) : Moved p p' (bs.map .got) :=
  ⟨h.input, h.log, by rw [gotText_got]; exact h.reads⟩

/-- How `play_events` can end after the time has been asked for. -/
def Outcome (p : Port) (lines : List (List Char)) (r : Except IoError Unit) (p' : Port) : Prop :=
  ∃ rs : List Round, (∀ x ∈ rs, '\n' ∉ x.1) ∧
    ((r = .ok () ∧ Conversation lines rs [] ∧ Moved p p' (rs.flatMap Round.acts)) ∨
      ∃ c left, Conversation lines rs (c :: left) ∧
        ((∃ (code : Nat) (bs : List Char), r = .error (.read code) ∧ '\n' ∉ bs ∧
            Moved p p' (rs.flatMap Round.acts ++ .sent (c ++ ['\n']) :: bs.map .got)) ∨
          ∃ reply, r = .error (.controller reply) ∧ '\n' ∉ reply ∧ reply ≠ ['O', 'K'] ∧
            reply ≠ ['E', 'R', 'R', ' ', '1'] ∧
            Moved p p' (rs.flatMap Round.acts ++ Round.acts (c, reply) ++ [.sent ['R', '\n']])))

theorem Outcome.before {p q p' : Port} {x : Round} {ls ls' : List (List Char)} {r : Except IoError Unit}
    (h : Outcome q ls r p') (hm : Moved p q x.acts) (hx : '\n' ∉ x.1)
    (hc : ∀ rs left, Conversation ls rs left → Conversation ls' (x :: rs) left) : Outcome p ls' r p' := by
  obtain ⟨rs, h0, h1⟩ := h
  refine ⟨x :: rs, ?_, ?_⟩
  · intro y hy
    rcases List.mem_cons.1 hy with rfl | hy
    · exact hx
    · exact h0 y hy
  · rw [List.flatMap_cons]
    rcases h1 with ⟨h1, h2, h3⟩ | ⟨c, left, h1, ⟨code, bs, h2, h3, h4⟩ | ⟨reply, h2, h3, h4, h5, h6⟩⟩
    · exact .inl ⟨h1, hc _ _ h2, hm.trans h3⟩
    · refine .inr ⟨c, left, hc _ _ h1, .inl ⟨code, bs, h2, h3, ?_⟩⟩
      rw [List.append_assoc]
      exact hm.trans h4
    · refine .inr ⟨c, left, hc _ _ h1, .inr ⟨reply, h2, h3, h4, h5, ?_⟩⟩
      rw [List.append_assoc, List.append_assoc]
      exact hm.trans (by rw [← List.append_assoc]; exact h6)

theorem playLoop_spec (p : Port) (t : Int) (pending rest : List Event) (r : Except IoError Unit) (p' : Port)
    (hp : pending.length ≤ 1) (h : playLoop p t pending rest = some (r, p')) :
    Outcome p (eventLines t (pending ++ rest)) r p' := by
  refine playLoop.partial_correctness (fun p t pending rest (res : _ × _) => pending.length ≤ 1 →
    Outcome p (eventLines t (pending ++ rest)) res.1 res.2) ?_ p t pending rest (r, p') h hp
  clear h r p' hp rest pending t p
  intro f ih p t pending rest res h hp
  have key : ∀ e rest', pending ++ rest = e :: rest' → refill pending rest = ([e], rest') := by
    intro e rest' heq
    match pending, rest with
    | [], x :: xs => cases heq; rfl
    | [x], xs => cases heq; cases xs <;> rfl
  cases heq : pending ++ rest with
  | nil =>
    simp only [List.append_eq_nil_iff] at heq
    obtain ⟨rfl, rfl⟩ := heq
    simp only [refill] at h
    cases h
    exact ⟨[], by simp, .inl ⟨rfl, .done _, Moved.refl _⟩⟩
  | cons e rest' =>
    rw [key e rest' heq] at h
    simp only at h
    cases hw : sendCmds p t [e] with
    | none => simp [hw] at h
    | some q =>
      have hm := write_moved hw
      simp only [cmdsText, List.append_nil, cmdText_eq] at hm
      simp only [hw, Option.bind_eq_bind, Option.bind_some, readReplies] at h
      cases hr : readReply q with
      | none => simp [hr] at h
      | some y =>
        obtain ⟨y, q2⟩ := y
        obtain ⟨bs, hbs, ho | ⟨code, ho⟩⟩ := readLoop_spec _ _ _ _ hr
        · obtain ⟨rfl, hread⟩ := ho
          rw [List.nil_append] at hr
          have hround : Moved p q2 (Round.acts (cmdLine (t + e.ticks) e.cmd, bs)) := hm.trans hread.moved
          simp only [hr, Option.bind_some] at h
          by_cases hbad : bs ≠ ['O', 'K'] ∧ bs ≠ ['E', 'R', 'R', ' ', '1']
          · rw [if_pos hbad] at h
            cases hw' : q2.write ['R', '\n'] with
            | none => simp [hw'] at h
            | some q3 =>
              simp only [hw', Option.bind_some, Option.pure_def] at h
              cases h
              refine ⟨[], by simp, .inr ⟨_, _, .done _, .inr ⟨bs, rfl, hbs, hbad.1, hbad.2, ?_⟩⟩⟩
              simpa using hround.trans (write_moved hw')
          · rw [if_neg hbad] at h
            by_cases hok : bs = ['O', 'K']
            · subst hok
              simp only [ne_eq, not_true_eq_false, false_and, if_false, if_true, Option.bind_some] at h
              have := ih _ _ _ _ _ h (by simp)
              exact this.before hround (cmdLine_newline _ _) fun rs left hc => .accept hc
            · have hfull : bs = ['E', 'R', 'R', ' ', '1'] := by
                by_contra hne
                exact hbad ⟨hok, hne⟩
              subst hfull
              simp only [ne_eq, hok, not_false_eq_true, and_self, if_true, Option.bind_some,
                reduceCtorEq, if_false, List.drop_zero] at h
              have := ih _ _ _ _ _ h (by simp)
              exact this.before hround (cmdLine_newline _ _) fun rs left hc => .retry hc
        · obtain ⟨rfl, hread⟩ := ho
          simp only [hr, Option.bind_some, Option.pure_def] at h
          cases h
          refine ⟨[], by simp, .inr ⟨_, _, .done _, .inl ⟨code, bs, rfl, hbs, ?_⟩⟩⟩
          simpa using hm.trans hread.moved

end StepperPaths.Control
