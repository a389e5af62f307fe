import Verif.Proof.Control

/-! Properties of the serial protocol (C35-C38). -/

namespace StepperPaths.Props
open Context Control Spec

/-! ### Numbers and schedules -/

theorem parseDigits_eq (cs : List Char) (acc : Nat) : parseDigits acc cs =
    if cs.all Char.isDigit then some (cs.foldl (fun n c => 10 * n + (c.toNat - 48)) acc) else none := by
  induction cs generalizing acc with
  | nil => rfl
  | cons c cs ih =>
    have hc : c.isDigit = true ↔ '0' ≤ c ∧ c ≤ '9' := by
      simp [Char.isDigit, Char.le_def]
    rw [parseDigits, ih]
    by_cases h : c.isDigit = true
    · rw [if_pos (hc.1 h)]
      simp [h]
    · rw [if_neg (fun hh => h (hc.2 hh))]
      simp [h]

theorem parseNat_eq (cs : List Char) : parseNat cs = readNat cs := by
  cases cs with
  | nil => rfl
  | cons c cs =>
    unfold readNat
    simp only [ne_eq, reduceCtorEq, not_false_eq_true, true_and]
    exact parseDigits_eq _ _

/-- `str::parse::<i64>` as the specification reads numbers. -/
theorem parseI64_eq (s : List Char) :
    parseI64 s = (readInt s).filter fun n => decide (i64Min ≤ n ∧ n ≤ i64Max) := by
  unfold parseI64
  congr 1
  unfold readInt
  split <;> simp [parseNat_eq]

theorem delivers_split {input : Nat → ReadOutcome} {n m : Nat} (a b : List Char)
    (h : Delivers input n (a ++ b) m) : ∃ k, Delivers input n a k ∧ Delivers input k b m := by
  generalize ht : a ++ b = text at h
  induction h generalizing a with
  | nil n =>
    simp only [List.append_eq_nil_iff] at ht
    obtain ⟨rfl, rfl⟩ := ht
    exact ⟨n, .nil n, .nil n⟩
  | @skip n m c text hs hd ih =>
    cases a with
    | nil =>
      rw [List.nil_append] at ht
      exact ⟨n, .nil n, ht ▸ .skip hs hd⟩
    | cons x a =>
      obtain ⟨k, h1, h2⟩ := ih _ ht
      exact ⟨k, .skip hs h1, h2⟩
  | @byte n m c text hs hd ih =>
    cases a with
    | nil =>
      rw [List.nil_append] at ht
      exact ⟨n, .nil n, ht ▸ .byte hs hd⟩
    | cons x a =>
      rw [List.cons_append, List.cons.injEq] at ht
      obtain ⟨k, h1, h2⟩ := ih _ ht.2
      exact ⟨k, by rw [ht.1]; exact .byte hs h1, h2⟩

/-! ### C37 -/

/-- C37: `read_reply` returns the characters up to the next newline, however they are interleaved
with timeouts and empty reads, and reads nothing beyond the newline. -/
theorem C37_line (p : Port) (line : List Char) (m : Nat) (hl : '\n' ∉ line)
    (h : Delivers p.input p.reads (line ++ ['\n']) m) :
    readReply p = some (.ok line, { p with reads := m, log := p.log ++ (line ++ ['\n']).map .got }) :=
  readLoop_delivers hl h

/-- C37: if `read_reply` returns a line then the reads it made gave exactly this line and a
newline. -/
theorem C37_exact (p p' : Port) (line : List Char) (h : readReply p = some (.ok line, p')) :
    '\n' ∉ line ∧ ∃ k, p'.reads = p.reads + k ∧ received p.input p.reads k = line ++ ['\n'] := by
  obtain ⟨bs, hbs, ⟨h1, h2⟩ | ⟨_, h1, _⟩⟩ := readLoop_spec _ _ _ _ h
  · simp only [List.nil_append, Except.ok.injEq] at h1
    subst h1
    exact ⟨hbs, h2.reads⟩
  · cases h1

/-- C37: errors other than timeouts are returned. -/
theorem C37_error (p : Port) (part : List Char) (m code : Nat) (hl : '\n' ∉ part)
    (h : Delivers p.input p.reads part m) (he : p.input m = .error code) :
    readReply p = some (.error (.read code),
      { p with reads := m + 1, log := p.log ++ part.map .got }) := by
  have key : ∀ (inp : Nat → ReadOutcome) (n m : Nat) (part : List Char), Delivers inp n part m → inp m = .error code →
      '\n' ∉ part → ∀ (p : Port) (reply : List Char), p.input = inp → p.reads = n →
      readLoop p reply = some (.error (.read code),
        { p with reads := m + 1, log := p.log ++ part.map .got }) := by
    intro inp n m part h
    induction h with
    | nil n =>
      intro he _ p reply hi hn
      subst hi hn
      rw [readLoop]
      simp [Port.read, he]
    | skip hs _ ih =>
      intro he hl p reply hi hn
      subst hi hn
      rw [readLoop]
      have := ih he hl { p with reads := p.reads + 1 } reply rfl rfl
      rcases hs with hs | hs <;>
      · simp only [Port.read, hs, List.append_nil]
        exact this
    | byte hs _ ih =>
      intro he hl p reply hi hn
      subst hi hn
      rw [readLoop]
      simp only [Port.read, hs]
      rw [if_neg (fun hb => hl (by simp [hb]))]
      refine (ih he (fun hx => hl (List.mem_cons_of_mem _ hx)) { p with
        reads := p.reads + 1, log := _ } _ rfl rfl).trans ?_
      simp
  exact key _ _ _ _ h he hl p [] rfl rfl

/-- C37: when the other side has gone away `read` gives nothing for ever, and `read_reply` never
returns. -/
theorem C37_hangs (p : Port)
    (h : ∀ n, p.reads ≤ n → p.input n = .empty ∨ p.input n = .timedOut) : readReply p = none :=
  readLoop_silent p [] h

/-- A port that gives the characters of `s`, with a timeout before every one of them, and nothing
after. -/
def slowPort (s : String) : Port :=
  ⟨fun n => if n % 2 = 0 then .timedOut else match s.toList[n / 2]? with
    | some c => .byte c
    | none => .empty, fun _ => true, 0, 0, []⟩

/-- A port that gives the characters of `s` and then an error. -/
def quickPort (s : String) : Port :=
  ⟨fun n => match s.toList[n]? with
    | some c => .byte c
    | none => .error 5, fun _ => true, 0, 0, []⟩

theorem delivers_slow (s : List Char) (input : Nat → ReadOutcome) (n : Nat)
    (h : ∀ i (hi : i < s.length), input (n + 2 * i) = .timedOut ∧ input (n + 2 * i + 1) = .byte s[i]) :
    Delivers input n s (n + 2 * s.length) := by
  induction s generalizing n with
  | nil => exact .nil n
  | cons c s ih =>
    have h0 := h 0 (by simp)
    refine .skip (.inr (by simpa using h0.1)) (.byte (by simpa using h0.2) ?_)
    have := ih (n + 2) (fun i hi => by
      have := h (i + 1) (by simpa using hi)
      rw [show n + 2 + 2 * i = n + 2 * (i + 1) by ring]
      simpa using this)
    rw [show n + 2 * (c :: s).length = n + 2 + 2 * s.length by simp; ring]
    exact this

theorem slowPort_delivers (s : String) : Delivers (slowPort s).input 0 s.toList (2 * s.toList.length) := by
  have := delivers_slow s.toList (slowPort s).input 0 (fun i hi => by
    constructor
    · simp [slowPort]
    · have h1 : (0 + 2 * i + 1) % 2 ≠ 0 := by omega
      have h2 : (0 + 2 * i + 1) / 2 = i := by omega
      simp only [slowPort, h1, if_false, h2, List.getElem?_eq_getElem hi])
  simpa using this

theorem delivers_quick (s : List Char) (input : Nat → ReadOutcome) (n : Nat)
    (h : ∀ i (hi : i < s.length), input (n + i) = .byte s[i]) :
    Delivers input n s (n + s.length) := by
  induction s generalizing n with
  | nil => exact .nil n
  | cons c s ih =>
    have h0 := h 0 (by simp)
    refine .byte (by simpa using h0) ?_
    have := ih (n + 1) (fun i hi => by
      have := h (i + 1) (by simpa using hi)
      rw [show n + 1 + i = n + (i + 1) by ring]
      simpa using this)
    rw [show n + (c :: s).length = n + 1 + s.length by simp; ring]
    exact this

theorem quickPort_delivers (s : String) : Delivers (quickPort s).input 0 s.toList s.toList.length := by
  have := delivers_quick s.toList (quickPort s).input 0 (fun i hi => by
    simp only [quickPort, Nat.zero_add, List.getElem?_eq_getElem hi])
  simpa using this

example : ∃ p', readReply (slowPort "OK\nERR") = some (.ok ['O', 'K'], p') ∧ p'.reads = 6 := by
  refine ⟨_, C37_line (slowPort "OK\nERR") ['O', 'K'] 6 (by decide) ?_, rfl⟩
  exact delivers_slow ['O', 'K', '\n'] _ 0 (by decide)

example : readReply (slowPort "") = none :=
  C37_hangs _ (fun n _ => by
    simp only [slowPort]
    split
    · exact .inr rfl
    · exact .inl (by simp))

example : ∃ p', readReply (quickPort "ab") = some (.error (.read 5), p') :=
  ⟨_, C37_error (quickPort "ab") ['a', 'b'] 2 5 (by decide) (quickPort_delivers "ab") rfl⟩

/-! ### C38 -/

/-- C38: a controller that splits what it receives into lines recovers channel, absolute time and
value of every command. -/
theorem C38_decodes (t : Int) (es : List Event) :
    ((splitLines (cmdsText t es)).1.map decodeLine) = (absolute t es).map some ∧
      (splitLines (cmdsText t es)).2 = [] := by
  have := splitLines_lines (eventLines_newline t es) (k := []) (by simp)
  rw [List.append_nil, ← cmdsText_eq] at this
  rw [this]
  exact ⟨decode_eventLines t es, rfl⟩

/-- C38: the text determines the events and the times. -/
theorem C38_injective (t t' : Int) (es es' : List Event) (h : cmdsText t es = cmdsText t' es') :
    absolute t es = absolute t' es' := by
  have h1 := (C38_decodes t es).1
  have h2 := (C38_decodes t' es').1
  rw [h, h2] at h1
  exact (List.map_injective_iff.2 (Option.some_injective _) h1).symm

/-- C38: and with the same start time the same deltas. -/
theorem C38_injective_events (t : Int) (es es' : List Event) (h : cmdsText t es = cmdsText t es') :
    es = es' := by
  have key : ∀ (es es' : List Event) (t : Int), absolute t es = absolute t es' → es = es' := by
    intro es
    induction es with
    | nil =>
      intro es' t h
      cases es' with
      | nil => rfl
      | cons => cases h
    | cons e es ih =>
      intro es' t h
      cases es' with
      | nil => cases h
      | cons e' es' =>
        obtain ⟨k, c⟩ := e
        obtain ⟨k', c'⟩ := e'
        simp only [absolute, List.cons.injEq, Timed.mk.injEq] at h
        obtain ⟨⟨h1, rfl⟩, h2⟩ := h
        obtain rfl : k = k' := by omega
        rw [ih _ _ h2]
  exact key _ _ _ (C38_injective t t es es' h)

theorem showNat_text (n : Nat) : showNat n = n.repr.toList := by
  rw [Nat.toList_repr]
  induction n using Nat.strong_induction_on with
  | _ n ih =>
    rw [Nat.toDigits_eq_if (by norm_num)]
    unfold showNat
    by_cases h0 : n = 0
    · subst h0; rfl
    rw [if_neg h0]
    split
    · rename_i h
      rw [Nat.digits_of_lt 10 n h0 h]
      rfl
    · rename_i h
      have h1 : n / 10 ≠ 0 := by omega
      rw [← ih (n / 10) (by omega), showNat, if_neg h1, Nat.digits_def' (by norm_num) (by omega)]
      simp

theorem showInt_text (n : Int) : showInt n = (toString n).toList := by
  rw [Int.toString_eq_repr, Int.repr_eq_if, showInt]
  split
  · rename_i h
    rw [if_neg (by omega), showNat_text, String.toList_append]
    rw [show (-n).toNat = n.natAbs by omega]
    rfl
  · rename_i h
    rw [if_pos (by omega), showNat_text, show n.toNat = n.natAbs by omega]

/-- C38: the text is one line for each command, with its numbers in plain decimal notation. -/
theorem C38_text (t : Int) (es : List Event) :
    cmdsText t es = (absolute t es).flatMap fun c => (wireLine c).toList := by
  induction es generalizing t with
  | nil => rfl
  | cons e es ih =>
    rw [cmdsText, absolute, List.flatMap_cons, ih]
    congr 1
    unfold wireLine
    cases hc : e.cmd with
    | acc ch a => cases ch <;>
      simp [cmdText, showInt_text, showNat_text, channelNumber, String.toList_append] <;> rfl
    | weight w =>
      simp [cmdText, showInt_text, String.toList_append]
      rfl

example : cmdsText 1000 [⟨5, .acc .y (-12)⟩, ⟨300, .weight 7⟩] = "A1,1005,-12\nL1305,7\n".toList := by
  decide +kernel

/-! ### C35 -/

/-- The start of `play_events`. -/
theorem playEvents_start {p p' : Port} {es : List Event} {r : Except IoError Unit}
    (h : playEvents p es = some (r, p')) : ∃ (r0 : List Char) (t0 : Int) (q : Port), '\n' ∉ r0 ∧
      readInt r0 = some t0 ∧ Moved p q (Round.acts (['T'], r0)) ∧
      Outcome q (eventLines (t0 + 128) es) r p' := by
  unfold playEvents requestTime at h
  obtain ⟨⟨t0, q⟩, h1, h2⟩ := Option.bind_eq_some_iff.1 h
  obtain ⟨q1, hw, h1⟩ := Option.bind_eq_some_iff.1 h1
  obtain ⟨⟨r0, q2⟩, hr, h1⟩ := Option.bind_eq_some_iff.1 h1
  obtain ⟨bs, hbs, ⟨ho, hread⟩ | ⟨code, ho, _⟩⟩ := readLoop_spec _ _ _ _ hr
  · subst ho
    simp only [List.nil_append] at h1
    obtain ⟨t, ht, h1⟩ := Option.map_eq_some_iff.1 h1
    simp only [Prod.mk.injEq] at h1
    obtain ⟨rfl, rfl⟩ := h1
    rw [parseI64_eq] at ht
    exact ⟨bs, t, q2, hbs, (Option.filter_eq_some_iff.1 ht).1, (write_moved hw).trans hread.moved,
      playLoop_spec _ _ _ _ _ _ (by simp) h2⟩
  · subst ho
    cases h1

/-- C35: when `play_events` returns Ok, what has happened at the port is: it asked for the time,
then every event has been sent as one command at the reported time + 128 + the sum of the deltas
so far, in order, each one again until it was accepted, and never before the answer to the one before
it had arrived.  All bytes that were read are the answers. -/
theorem C35_delivers (p p' : Port) (es : List Event) (h : playEvents p es = some (.ok (), p')) :
    ∃ (r0 : List Char) (t0 : Int) (lines : List (List Char)) (rs : List Round),
      readInt r0 = some t0 ∧ lines.map decodeLine = (absolute (t0 + 128) es).map some ∧
      (∀ l ∈ lines, '\n' ∉ l) ∧ Conversation lines rs [] ∧
      p'.log = p.log ++ ((['T'], r0) :: rs).flatMap Round.acts ∧
      ∃ k, p'.reads = p.reads + k ∧
        received p.input p.reads k = ((['T'], r0) :: rs).flatMap (fun r => r.2 ++ ['\n']) := by
  obtain ⟨r0, t0, q, h0, h1, h2, rs, h3, h4⟩ := playEvents_start h
  rcases h4 with ⟨-, h4, h5⟩ | ⟨c, left, -, ⟨code, bs, h4, -⟩ | ⟨reply, h4, -⟩⟩
  · refine ⟨r0, t0, _, rs, h1, decode_eventLines _ _, eventLines_newline _ _, h4, ?_⟩
    have hm := h2.trans h5
    rw [← List.flatMap_cons (f := Round.acts)] at hm
    refine ⟨hm.log, ?_⟩
    obtain ⟨k, hk, hk'⟩ := hm.reads
    refine ⟨k, hk, hk'.trans ?_⟩
    generalize (['T'], r0) :: rs = xs
    induction xs with
    | nil => rfl
    | cons x xs ih =>
      rw [List.flatMap_cons, gotText_append, ih, List.flatMap_cons]
      congr 1
      exact gotText_got _
  · cases h4
  · cases h4

/-- The commands that are accepted in a conversation, and those that are left. -/
theorem conversation_accepted {todo left : List (List Char)} {rs : List Round}
    (h : Conversation todo rs left) : accepted rs ++ left = todo := by
  induction h with
  | done => rfl
  | retry _ ih => rw [← ih]; simp [accepted]
  | accept _ ih => rw [← ih]; simp [accepted]

/-- C35: so the controller has accepted each event exactly once, in order, at its time. -/
theorem C35_accepted (p p' : Port) (es : List Event) (h : playEvents p es = some (.ok (), p')) :
    ∃ (r0 : List Char) (t0 : Int) (rs : List Round), readInt r0 = some t0 ∧
      (accepted rs).map decodeLine = (absolute (t0 + 128) es).map some ∧
      p'.log = p.log ++ ((['T'], r0) :: rs).flatMap Round.acts := by
  obtain ⟨r0, t0, lines, rs, h1, h2, -, h3, h4, -⟩ := C35_delivers p p' es h
  have := conversation_accepted h3
  rw [List.append_nil] at this
  exact ⟨r0, t0, rs, h1, by rw [this, h2], h4⟩

/-- Queue full `k` times, then accepted. -/
def answers (k : Nat) : List Char :=
  (List.replicate k ['E', 'R', 'R', ' ', '1', '\n']).flatten ++ ['O', 'K', '\n']

theorem play_retry {p : Port} {m : Nat} (t : Int) (e : Event) (rest : List Event)
    (h : Delivers p.input p.reads ['E', 'R', 'R', ' ', '1', '\n'] m) (hw : p.writeOk p.writes = true) :
    ∃ log, playLoop p t [e] rest =
      playLoop { p with reads := m, writes := p.writes + 1, log := log } t [e] rest := by
  have hr := fun l => C37_line { p with writes := p.writes + 1, log := l } ['E', 'R', 'R', ' ', '1'] m (by decide) h
  have hf : refill [e] rest = ([e], rest) := by cases rest <;> rfl
  refine ⟨p.log ++ [.sent (cmdsText t [e])] ++ ['E', 'R', 'R', ' ', '1', '\n'].map .got, ?_⟩
  rw [playLoop, hf]
  simp only [sendCmds, Port.write, hw, if_true, Option.bind_eq_bind, Option.bind_some, readReplies, hr]
  rfl

theorem play_accept {p : Port} {m : Nat} (t : Int) (e : Event) (rest : List Event)
    (h : Delivers p.input p.reads ['O', 'K', '\n'] m) (hw : p.writeOk p.writes = true) :
    ∃ log, playLoop p t [e] rest =
      playLoop { p with reads := m, writes := p.writes + 1, log := log } (t + e.ticks) [] rest := by
  have hr := fun l => C37_line { p with writes := p.writes + 1, log := l } ['O', 'K'] m (by decide) h
  have hf : refill [e] rest = ([e], rest) := by cases rest <;> rfl
  refine ⟨p.log ++ [.sent (cmdsText t [e])] ++ ['O', 'K', '\n'].map .got, ?_⟩
  rw [playLoop, hf]
  simp only [sendCmds, Port.write, hw, if_true, Option.bind_eq_bind, Option.bind_some, readReplies, hr]
  rfl

theorem playLoop_pending (p : Port) (t : Int) (e : Event) (rest : List Event) :
    playLoop p t [] (e :: rest) = playLoop p t [e] rest := by
  have hf : refill [e] rest = ([e], rest) := by cases rest <;> rfl
  rw [playLoop, playLoop, hf]
  rfl

theorem playLoop_returns (es : List (Event × Nat)) : ∀ (p : Port) (t : Int) (m : Nat),
    Delivers p.input p.reads (es.flatMap fun x => answers x.2) m → (∀ n, p.writeOk n = true) →
    ∃ p', playLoop p t [] (es.map Prod.fst) = some (.ok (), p') ∧ p'.reads = m := by
  induction es with
  | nil =>
    intro p t m h _
    refine ⟨p, ?_, (delivers_nil h).symm⟩
    rw [List.map_nil, playLoop]
    rfl
  | cons x es ih =>
    obtain ⟨e, k⟩ := x
    intro p t m h hw
    rw [List.map_cons, playLoop_pending]
    rw [List.flatMap_cons] at h
    induction k generalizing p with
    | zero =>
      obtain ⟨n, h1, h2⟩ := delivers_split _ _ h
      obtain ⟨log, hl⟩ := play_accept t e (es.map Prod.fst) h1 (hw _)
      rw [hl]
      exact ih _ _ _ h2 hw
    | succ k ihk =>
      simp only [answers, List.replicate_succ, List.flatten_cons, List.append_assoc] at h
      obtain ⟨n, h1, h2⟩ := delivers_split _ _ h
      obtain ⟨log, hl⟩ := play_retry t e (es.map Prod.fst) h1 (hw _)
      rw [hl]
      refine ihk _ ?_ hw
      simp only [answers, List.append_assoc]
      exact h2

/-- C35: `play_events` does return Ok if the controller reports its time and then accepts every
command at some time, however many queue-full replies it gives before and however the bytes are
delayed. -/
theorem C35_returns (p : Port) (r0 : List Char) (t0 : Int) (es : List (Event × Nat)) (m : Nat)
    (h0 : '\n' ∉ r0) (ht : readInt r0 = some t0) (hr : i64Min ≤ t0 ∧ t0 ≤ i64Max)
    (h : Delivers p.input p.reads (r0 ++ '\n' :: es.flatMap fun x => answers x.2) m)
    (hw : ∀ n, p.writeOk n = true) :
    ∃ p', playEvents p (es.map Prod.fst) = some (.ok (), p') ∧ p'.reads = m := by
  rw [← List.singleton_append (l := es.flatMap _), ← List.append_assoc] at h
  obtain ⟨k, h1, h2⟩ := delivers_split _ _ h
  have h3 := fun l => C37_line { p with writes := p.writes + 1, log := l } r0 k h0 h1
  have hp : parseI64 r0 = some t0 := by
    rw [parseI64_eq, ht]
    simp [Option.filter, hr]
  unfold playEvents requestTime
  simp only [Port.write, hw, if_true, Option.bind_eq_bind, Option.bind_some, h3, hp, Option.map_some]
  exact playLoop_returns es _ _ _ h2 hw

/-- Three events: the first is accepted after two queue-full replies, the others at once. -/
example : ∃ p', playEvents (slowPort "17\nERR 1\nERR 1\nOK\nOK\nOK\n")
    [⟨0, .acc .x 3⟩, ⟨10, .weight 200⟩, ⟨0, .acc .x (-3)⟩] = some (.ok (), p') := by
  obtain ⟨p', h, -⟩ := C35_returns (slowPort "17\nERR 1\nERR 1\nOK\nOK\nOK\n") ['1', '7'] 17
    [(⟨0, .acc .x 3⟩, 2), (⟨10, .weight 200⟩, 0), (⟨0, .acc .x (-3)⟩, 0)] _ (by decide) (by decide)
    (by decide) (slowPort_delivers _) (fun _ => rfl)
  exact ⟨p', h⟩

/-! ### C36 -/

/-- C36: when `play_events` returns an error, the commands accepted so far are the first events;
after an unexpected reply the error carries this reply and the reset `R` is the last thing
sent. -/
theorem C36_error (p p' : Port) (es : List Event) (err : IoError)
    (h : playEvents p es = some (.error err, p')) :
    ∃ (r0 : List Char) (t0 : Int) (lines : List (List Char)) (rs : List Round) (c : List Char)
      (left : List (List Char)),
      readInt r0 = some t0 ∧ lines.map decodeLine = (absolute (t0 + 128) es).map some ∧
      (∀ l ∈ lines, '\n' ∉ l) ∧ Conversation lines rs (c :: left) ∧ accepted rs ++ c :: left = lines ∧
      ((∃ (code : Nat) (part : List Char), err = .read code ∧ '\n' ∉ part ∧
          p'.log = p.log ++ ((['T'], r0) :: rs).flatMap Round.acts ++
            .sent (c ++ ['\n']) :: part.map .got) ∨
        (∃ reply, err = .controller reply ∧ reply ≠ ['O', 'K'] ∧ reply ≠ ['E', 'R', 'R', ' ', '1'] ∧
          p'.log = p.log ++ ((['T'], r0) :: rs).flatMap Round.acts ++
            Round.acts (c, reply) ++ [.sent ['R', '\n']])) := by
  obtain ⟨r0, t0, q, h0, h1, h2, rs, h3, h4⟩ := playEvents_start h
  rcases h4 with ⟨h4, -⟩ | ⟨c, left, h5, ⟨code, bs, h4, h6, h7⟩ | ⟨reply, h4, h6, h7, h8, h9⟩⟩
  · cases h4
  · cases h4
    refine ⟨r0, t0, _, rs, c, left, h1, decode_eventLines _ _, eventLines_newline _ _, h5,
      conversation_accepted h5, .inl ⟨code, bs, rfl, h6, ?_⟩⟩
    rw [(h2.trans h7).log]
    simp
  · cases h4
    refine ⟨r0, t0, _, rs, c, left, h1, decode_eventLines _ _, eventLines_newline _ _, h5,
      conversation_accepted h5, .inr ⟨reply, rfl, h7, h8, ?_⟩⟩
    rw [(h2.trans h9).log]
    simp

/-- C36: an unexpected reply does make `play_events` return the error. -/
theorem C36_returns (p : Port) (r0 reply : List Char) (t0 : Int) (es : List (Event × Nat)) (e : Event)
    (rest : List Event) (m : Nat)
    (h0 : '\n' ∉ r0) (ht : readInt r0 = some t0) (hr : i64Min ≤ t0 ∧ t0 ≤ i64Max)
    (hn : '\n' ∉ reply) (hok : reply ≠ ['O', 'K']) (hfull : reply ≠ ['E', 'R', 'R', ' ', '1'])
    (h : Delivers p.input p.reads
      (r0 ++ '\n' :: (es.flatMap fun x => answers x.2) ++ (reply ++ ['\n'])) m)
    (hw : ∀ n, p.writeOk n = true) :
    ∃ p', playEvents p (es.map Prod.fst ++ e :: rest) = some (.error (.controller reply), p') ∧ p'.reads = m := by
  have key : ∀ (es : List (Event × Nat)) (p : Port) (t : Int),
      Delivers p.input p.reads ((es.flatMap fun x => answers x.2) ++ (reply ++ ['\n'])) m →
      (∀ n, p.writeOk n = true) →
      ∃ p', playLoop p t [] (es.map Prod.fst ++ e :: rest) = some (.error (.controller reply), p') ∧
        p'.reads = m := by
    intro es
    induction es with
    | nil =>
      intro p t h hw
      have hr := fun l => C37_line { p with writes := p.writes + 1, log := l } reply m hn h
      rw [List.map_nil, List.nil_append, playLoop]
      simp only [refill, sendCmds, Port.write, hw, if_true, Option.bind_eq_bind, Option.bind_some,
        readReplies, hr, hok, hfull, ne_eq, not_false_eq_true, and_self, Option.pure_def]
      exact ⟨_, rfl, rfl⟩
    | cons x es ih =>
      obtain ⟨e, k⟩ := x
      intro p t h hw
      rw [List.map_cons, List.cons_append, playLoop_pending]
      rw [List.flatMap_cons, List.append_assoc] at h
      induction k generalizing p with
      | zero =>
        obtain ⟨n, h1, h2⟩ := delivers_split _ _ h
        obtain ⟨log, hl⟩ := play_accept t e _ h1 (hw _)
        rw [hl]
        exact ih _ _ h2 hw
      | succ k ihk =>
        simp only [answers, List.replicate_succ, List.flatten_cons, List.append_assoc] at h
        obtain ⟨n, h1, h2⟩ := delivers_split _ _ h
        obtain ⟨log, hl⟩ := play_retry t e _ h1 (hw _)
        rw [hl]
        refine ihk _ ?_ hw
        simp only [answers, List.append_assoc]
        exact h2
  have hsplit : r0 ++ '\n' :: (es.flatMap fun x => answers x.2) ++ (reply ++ ['\n']) =
      (r0 ++ ['\n']) ++ ((es.flatMap fun x => answers x.2) ++ (reply ++ ['\n'])) := by simp
  rw [hsplit] at h
  obtain ⟨k, h1, h2⟩ := delivers_split _ _ h
  have h3 := fun l => C37_line { p with writes := p.writes + 1, log := l } r0 k h0 h1
  have hp : parseI64 r0 = some t0 := by
    rw [parseI64_eq, ht]
    simp [Option.filter, hr]
  unfold playEvents requestTime
  simp only [Port.write, hw, if_true, Option.bind_eq_bind, Option.bind_some, h3, hp, Option.map_some]
  exact key es _ _ h2 hw

/-- C36, a finding: `play_events` panics when the first line it reads is not a number.  This
happens in the call after an error if the controller answers the reset: the answer to `R` has not
been read by the call that sent it. -/
theorem C36_panics (p : Port) (r0 : List Char) (es : List Event) (m : Nat) (h0 : '\n' ∉ r0)
    (ht : readInt r0 = none) (h : Delivers p.input p.reads (r0 ++ ['\n']) m) : playEvents p es = none := by
  have h3 := fun l => C37_line { p with writes := p.writes + 1, log := l } r0 m h0 h
  have hp : parseI64 r0 = none := by
    rw [parseI64_eq, ht]
    rfl
  unfold playEvents requestTime Port.write
  by_cases hw : p.writeOk p.writes = true
  · simp [hw, h3, hp]
  · simp [hw]

/-- The second command is refused; the controller answers the reset with OK. -/
def refusingPort : Port := quickPort "17\nOK\nERR 7\nOK\n18\n"

example : ∃ p', playEvents refusingPort [⟨0, .acc .x 3⟩, ⟨10, .weight 200⟩, ⟨0, .acc .x (-3)⟩] =
    some (.error (.controller "ERR 7".toList), p') ∧ playEvents p' [⟨0, .acc .x 3⟩] = none := by
  have hd : Delivers refusingPort.input 0 ("17\nOK\nERR 7\n".toList) 12 :=
    delivers_quick _ _ 0 (by decide)
  obtain ⟨p', h, hp'⟩ := C36_returns refusingPort "17".toList "ERR 7".toList 17 [(⟨0, .acc .x 3⟩, 0)]
    ⟨10, .weight 200⟩ [⟨0, .acc .x (-3)⟩] 12 (by decide) (by decide) (by decide) (by decide) (by decide)
    (by decide) hd (fun _ => rfl)
  refine ⟨p', h, ?_⟩
  obtain ⟨_, _, q, _, _, hm, rs, _, ho⟩ := playEvents_start h
  have hin : p'.input = refusingPort.input := by
    rcases ho with ⟨_, _, h5⟩ | ⟨_, _, _, ⟨_, _, _, _, h5⟩ | ⟨_, _, _, _, _, h5⟩⟩
    · exact h5.input.trans hm.input
    · exact h5.input.trans hm.input
    · exact h5.input.trans hm.input
  refine C36_panics p' "OK".toList _ 15 (by decide) (by decide) ?_
  rw [hp', hin]
  exact delivers_quick "OK\n".toList _ 12 (by decide)

end StepperPaths.Props
