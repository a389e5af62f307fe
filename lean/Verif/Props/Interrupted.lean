import Verif.Props.AnyDrawing

/-!
C129: what remains of a run that is interrupted.

When the serial line fails, the device has accepted the first events and no reset is sent.
-/

namespace StepperPaths.Props
open Context Control Spec Proof IntegerCurve Config Raster StepperPaths.Svg Rounded StepperPaths.Cli
open Draw (Seg)

/-! ### A device that has accepted only the first events -/

theorem valueFrom_take (f : ℤ → Command → ℤ) (es : List Event) (k : ℕ) (now : ℕ) (cur : ℤ) (τ : ℕ)
    (h : τ < now + duration (es.take (k + 1)) ∨ es.length ≤ k) :
    valueFrom f now cur (es.take k) τ = valueFrom f now cur es τ := by
  induction k generalizing es now cur with
  | zero =>
    cases es with
    | nil => rfl
    | cons e es =>
      rcases h with h | h
      · simp only [zero_add, List.take_succ_cons, List.take_zero, duration, add_zero] at h
        simp [valueFrom, h]
      · simp at h
  | succ k ih =>
    cases es with
    | nil => rfl
    | cons e es =>
      simp only [List.take_succ_cons, valueFrom]
      split
      · rfl
      · refine ih es _ _ ?_
        rcases h with h | h
        · rw [List.take_succ_cons, duration] at h
          left
          omega
        · right
          simpa using h

theorem played_congr {i : Axis} {es es' : List Event} {T : ℕ} (h : ∀ τ < T, accAt i es τ = accAt i es' τ) :
    played i es T = played i es' T :=
  List.map_congr_left fun τ hτ => h τ (List.mem_range.1 hτ)

/-- C129: up to the time of the first event that has not been accepted, the machine does what it does in the complete run. -/
theorem C129_same (es : List Event) (k : ℕ) (τ : ℕ) (h : τ < duration (es.take (k + 1))) :
    (∀ w0, weightAt w0 (es.take k) τ = weightAt w0 es τ) ∧
      ∀ i, accAt i (es.take k) τ = accAt i es τ ∧ velAt i (es.take k) (τ + 1) = velAt i es (τ + 1) ∧
        posAt i (es.take k) (τ + 1) = posAt i es (τ + 1) := by
  have acc : ∀ i σ, σ ≤ τ → accAt i (es.take k) σ = accAt i es σ := fun i σ hσ =>
    valueFrom_take _ es k 0 0 σ (.inl (by omega))
  refine ⟨fun w0 => valueFrom_take _ es k 0 w0 τ (.inl (by omega)), fun i => ⟨acc i τ le_rfl, ?_, ?_⟩⟩
  · unfold velAt
    rw [played_congr fun σ hσ => acc i σ (by omega)]
  · unfold posAt
    rw [played_congr fun σ hσ => acc i σ (by omega)]

/-- C129: from the time of the last accepted event on, the laser keeps its power, and each axis its acceleration: the speed grows
without end unless this acceleration is zero. -/
theorem C129_after (es : List Event) (n : ℕ) :
    (∀ w0, weightAt w0 es (duration es + n) = weightAt w0 es (duration es)) ∧
      ∀ i, accAt i es (duration es + n) = accAt i es (duration es) ∧
        velAt i es (duration es + n) = velAt i es (duration es) + n * accAt i es (duration es) := by
  have acc : ∀ i n, accAt i es (duration es + n) = accAt i es (duration es) := fun i n =>
    valueFrom_past _ _ _ _ _ _ (by omega) (by omega)
  refine ⟨fun w0 => valueFrom_past _ _ _ _ _ _ (by omega) (by omega), fun i => ⟨acc i n, ?_⟩⟩
  induction n with
  | zero => simp
  | succ n ih =>
    rw [← add_assoc, velAt_succ, ih, acc]
    push_cast
    ring

/-- The events up to a time. -/
theorem upTo (es : List Event) (τ : ℕ) : ∃ k ≤ es.length, duration (es.take k) ≤ τ ∧
    (τ < duration (es.take (k + 1)) ∨ es.length ≤ k) := by
  induction es generalizing τ with
  | nil => exact ⟨0, le_rfl, by simp [duration], .inr le_rfl⟩
  | cons e es ih =>
    by_cases h : τ < e.ticks
    · exact ⟨0, by simp, by simp [duration], .inl (by simpa [duration] using h)⟩
    · obtain ⟨k, h1, h2, h3⟩ := ih (τ - e.ticks)
      refine ⟨k + 1, by simpa using h1, ?_, ?_⟩
      · rw [List.take_succ_cons, duration]
        omega
      · rw [List.take_succ_cons, duration, List.length_cons]
        omega

/-- C129, a finding: whenever the laser is on in a run that ends with the laser off, there is an event such that the laser stays on
for good if the run is interrupted before it. -/
theorem C129_stays_on (es : List Event) (hr : EndsAtRest es) (w0 : ℤ) (τ : ℕ) (h : weightAt w0 es τ ≠ 0) :
    ∃ k < es.length, duration (es.take k) ≤ τ ∧ ∀ σ ≥ τ, weightAt w0 (es.take k) σ = weightAt w0 es τ := by
  obtain ⟨k, h1, h2, h3⟩ := upTo es τ
  refine ⟨k, ?_, h2, fun σ hσ => ?_⟩
  · refine lt_of_le_of_ne h1 fun hk => h ?_
    rw [hk, List.take_length] at h2
    exact (hr τ h2).1 w0
  · have e : weightAt w0 (es.take k) τ = weightAt w0 es τ := valueFrom_take weightAfter es k 0 w0 τ (by omega)
    rw [← e]
    exact valueFrom_past _ _ _ _ _ _ (by omega) (by omega)

/-- C129, a finding: whenever an axis accelerates in a run that ends at rest, there is an event such that the axis exceeds every
speed if the run is interrupted before it. -/
theorem C129_runs_away (es : List Event) (hr : EndsAtRest es) (i : Axis) (τ : ℕ) (h : accAt i es τ ≠ 0) :
    ∃ k < es.length, duration (es.take k) ≤ τ ∧ ∀ vMax, ∃ σ, vMax < |velAt i (es.take k) σ| := by
  obtain ⟨k, h1, h2, h3⟩ := upTo es τ
  refine ⟨k, ?_, h2, fun vMax => ?_⟩
  · refine lt_of_le_of_ne h1 fun hk => h ?_
    rw [hk, List.take_length] at h2
    exact ((hr τ h2).2 i).1
  · obtain ⟨n, rfl⟩ := Nat.exists_eq_add_of_le h2
    have e : accAt i (es.take k) (duration (es.take k) + n) = accAt i es (duration (es.take k) + n) :=
      valueFrom_take (accAfter i) es k 0 0 _ (by omega)
    rw [← e, ((C129_after _ n).2 i).1] at h
    generalize hv : velAt i (es.take k) (duration (es.take k)) = v at *
    generalize ha : accAt i (es.take k) (duration (es.take k)) = a at *
    let N : ℕ := (|v| + |vMax| + 1).toNat
    have hN : (N : ℤ) = |v| + |vMax| + 1 := Int.toNat_of_nonneg (by positivity)
    refine ⟨duration (es.take k) + N, ?_⟩
    rw [((C129_after _ N).2 i).2, hv, ha]
    have ha1 : 1 ≤ |a| := Int.one_le_abs h
    have hp : (N : ℤ) ≤ |(N : ℤ) * a| := by
      rw [abs_mul, Nat.abs_cast]
      exact le_mul_of_one_le_right (by positivity) ha1
    have h4 : |(N : ℤ) * a| ≤ |v + N * a| + |v| := by
      have := abs_add_le (v + N * a) (-v)
      rwa [abs_neg, show v + (N : ℤ) * a + -v = N * a by ring] at this
    have := le_abs_self vMax
    omega

/-! ### The serial line -/

/-- Playing the events to the device is cut off by an error of the serial line after the device has accepted the first `k` of them:
the last thing sent is the next command, and the device gets no reset. -/
def CutOff (es : List Event) (k : ℕ) (q : Port) : Prop :=
  ∃ code q' r0 t0 rs line cmd, playEvents q es = some (.error (.read code), q') ∧ readInt r0 = some t0 ∧
    (Spec.accepted rs).map decodeLine = (Spec.absolute (t0 + 128) (es.take k)).map some ∧
    decodeLine line = some cmd ∧ (Spec.absolute (t0 + 128) es)[k]? = some cmd ∧
    q'.log = q.log ++ ((['T'], r0) :: rs).flatMap Round.acts ++ [.sent (line ++ ['\n'])]

theorem accept_log {p : Port} {m : Nat} (t : Int) (e : Event) (rest : List Event)
    (h : Delivers p.input p.reads ['O', 'K', '\n'] m) (hw : p.writeOk p.writes = true) :
    playLoop p t [] (e :: rest) =
      playLoop { p with reads := m, writes := p.writes + 1, log := p.log ++ Round.acts (cmdLine (t + e.ticks) e.cmd, ['O', 'K']) } (t + e.ticks) [] rest := by
  have hr := fun l => C37_line { p with writes := p.writes + 1, log := l } ['O', 'K'] m (by decide) h
  have hf : refill [] (e :: rest) = ([e], rest) := rfl
  rw [playLoop, hf]
  simp only [sendCmds, Port.write, hw, if_true, Option.bind_eq_bind, Option.bind_some, readReplies, hr, Round.acts, cmdsText, cmdText_eq,
    List.append_nil, List.append_assoc]
  rfl

theorem play_cut (es : List Event) (e : Event) (rest : List Event) (p : Port) (t : ℤ) (m code : ℕ)
    (h : Delivers p.input p.reads (es.flatMap fun _ => ['O', 'K', '\n']) m) (he : p.input m = .error code)
    (hw : ∀ n, p.writeOk n = true) :
    ∃ p', playLoop p t [] (es ++ e :: rest) = some (.error (.read code), p') ∧
      p'.log = p.log ++ ((eventLines t es).map fun l => (l, ['O', 'K'])).flatMap Round.acts ++
        [.sent (cmdLine (t + duration es + e.ticks) e.cmd ++ ['\n'])] := by
  induction es generalizing p t with
  | nil =>
    have hm : p.reads = m := by cases h; rfl
    have hr := fun l => C37_error { p with writes := p.writes + 1, log := l } [] p.reads code (by simp) (.nil _) (by rw [hm]; exact he)
    rw [List.nil_append, playLoop]
    simp only [refill, sendCmds, Port.write, hw, if_true, Option.bind_eq_bind, Option.bind_some, readReplies, hr, Option.pure_def]
    refine ⟨_, rfl, ?_⟩
    simp [cmdsText, cmdText_eq, eventLines, duration]
  | cons d es ih =>
    rw [List.flatMap_cons] at h
    obtain ⟨n, h1, h2⟩ := delivers_split _ _ h
    rw [List.cons_append, accept_log t d _ h1 (hw _)]
    obtain ⟨p', k1, k2⟩ := ih { p with reads := n, writes := p.writes + 1, log := p.log ++ Round.acts (cmdLine (t + d.ticks) d.cmd, ['O', 'K']) } (t + d.ticks) h2 he hw
    refine ⟨p', k1, ?_⟩
    rw [k2]
    simp only [eventLines, List.map_cons, List.flatMap_cons, List.append_assoc, duration]
    push_cast
    rw [show t + (d.ticks : ℤ) + (duration es : ℤ) + e.ticks = t + (d.ticks + duration es) + e.ticks by ring]

theorem absolute_get (t : ℤ) (es : List Event) (e : Event) (rest : List Event) :
    (Spec.absolute t (es ++ e :: rest))[es.length]? = some ⟨t + duration es + e.ticks, e.cmd⟩ := by
  induction es generalizing t with
  | nil => simp [Spec.absolute, duration]
  | cons d es ih =>
    simp only [List.cons_append, Spec.absolute, List.length_cons, List.getElem?_cons_succ, ih, duration]
    push_cast
    rw [add_assoc t]

theorem accepted_ok (ls : List (List Char)) : Spec.accepted (ls.map fun l => (l, ['O', 'K'])) = ls := by
  induction ls with
  | nil => rfl
  | cons l ls ih =>
    unfold Spec.accepted at ih ⊢
    simp [ih]

/-- C129: if the device tells its time and accepts `k` commands, and then the line fails before anything else arrives, the run is cut off
after these commands, and the next one is the last thing that is sent. -/
theorem C129_cut (es : List Event) (k : ℕ) (hk : k < es.length) (q : Port) (r0 : List Char) (t0 : ℤ) (m code : ℕ)
    (h0 : '\n' ∉ r0) (ht : readInt r0 = some t0) (hr : i64Min ≤ t0 ∧ t0 ≤ i64Max)
    (h : Delivers q.input q.reads (r0 ++ '\n' :: ((es.take k).flatMap fun _ => ['O', 'K', '\n'])) m) (he : q.input m = .error code)
    (hw : ∀ n, q.writeOk n = true) : CutOff es k q := by
  obtain ⟨e, rest, hes⟩ : ∃ e rest, es = es.take k ++ e :: rest :=
    ⟨es[k], es.drop (k + 1), by rw [← List.drop_eq_getElem_cons hk, List.take_append_drop]⟩
  have hlen : (es.take k).length = k := by simp [hk.le]
  generalize hpre : es.take k = pre at *
  subst hes
  rw [← List.singleton_append (l := pre.flatMap _), ← List.append_assoc] at h
  obtain ⟨n, h1, h2⟩ := delivers_split _ _ h
  have h3 := fun l => C37_line { q with writes := q.writes + 1, log := l } r0 n h0 h1
  have hp : parseI64 r0 = some t0 := by
    rw [parseI64_eq, ht]
    simp [Option.filter, hr]
  obtain ⟨q', k1, k2⟩ := play_cut pre e rest { q with reads := n, writes := q.writes + 1, log := q.log ++ [.sent ['T', '\n']] ++ (r0 ++ ['\n']).map .got } (t0 + 128) m code h2 he hw
  refine ⟨code, q', r0, t0, (eventLines (t0 + 128) pre).map fun l => (l, ['O', 'K']), cmdLine (t0 + 128 + duration pre + e.ticks) e.cmd,
    ⟨t0 + 128 + duration pre + e.ticks, e.cmd⟩, ?_, ht, ?_, decode_cmdLine _ _, ?_, ?_⟩
  · unfold playEvents requestTime
    simp only [Port.write, hw, if_true, Option.bind_eq_bind, Option.bind_some, h3, hp, Option.map_some]
    exact k1
  · rw [accepted_ok, decode_eventLines, hpre]
  · rw [← hlen, absolute_get]
  · rw [k2]
    simp [Round.acts]

/-- A device that accepts `k` commands before the line fails. -/
def failing (k : ℕ) : Port := quickPort (String.ofList (['1', '7', '\n'] ++ (List.replicate k ['O', 'K', '\n']).flatten))

theorem failing_cut (es : List Event) (k : ℕ) (hk : k < es.length) : CutOff es k (failing k) := by
  have ht : (es.take k).flatMap (fun _ => ['O', 'K', '\n']) = (List.replicate k ['O', 'K', '\n']).flatten := by
    have : (es.take k).map (fun _ => ['O', 'K', '\n']) = List.replicate k ['O', 'K', '\n'] := by
      rw [List.map_const', List.length_take, min_eq_left hk.le]
    rw [List.flatMap_def, this]
  have hd := quickPort_delivers (String.ofList (['1', '7', '\n'] ++ (List.replicate k ['O', 'K', '\n']).flatten))
  rw [String.toList_ofList] at hd
  refine C129_cut es k hk (failing k) ['1', '7'] 17 _ 5 (by decide) (by decide) (by decide) (by rw [ht]; exact hd) ?_ fun _ => rfl
  simp [failing, quickPort]

/-! ### The programs -/

/-- C129: `svg_path`: whatever it is given, if it succeeds with some device, then with a device whose line fails at any point of the run
it panics, and this device has accepted the events up to this point and gets no reset. -/
theorem C129_svg (fl : ℝ → ℝ) (lib : Lib) (e : Rounded.Env) (cfg : Xy) (o : SvgNumbers) (layer : Option Arg) (doc : List XmlEvent)
    (p p' : Port) (h : Special.svgAny fl lib e cfg o layer doc (some p) = some (some p')) :
    ∃ es, Sent es p p' ∧ EndsAtRest es ∧ ∀ q k, CutOff es k q → Special.svgAny fl lib e cfg o layer doc (some q) = none := by
  unfold Special.svgAny at h ⊢
  obtain ⟨w, hw, h⟩ := Option.bind_eq_some_iff.1 h
  split at h
  · rename_i path hp
    obtain ⟨c, hc, h⟩ := Option.bind_eq_some_iff.1 h
    obtain ⟨_, hn, h⟩ := Option.bind_eq_some_iff.1 h
    simp only at h
    obtain ⟨⟨r, q⟩, hr, h⟩ := Option.bind_eq_some_iff.1 h
    obtain ⟨-, h2, -⟩ := C121_svg_events _ _ _ _ _ _ _ _ _ hc
    cases r with
    | error err => cases h
    | ok u =>
      refine ⟨c.events, by cases h; exact C35_accepted _ _ _ hr, h2, fun q k hq => ?_⟩
      obtain ⟨code, q', _, _, _, _, _, hq, -⟩ := hq
      simp only [hw, Option.bind_eq_bind, Option.bind_some]
      rw [hc, Option.bind_some, hn, Option.bind_some, hq]
      rfl
  · cases h

/-- C129: the same for `image_raster`. -/
theorem C129_raster (fl : ℝ → ℝ) (cfg : Xy) (o : RasterNumbers) (img : Image) (hi : ∀ x y, img.pixel x y ≤ 255)
    (hw : 0 ≤ Program.weightOf (o.intensity.getD 5)) (p p' : Port) (h : Special.rasterAny fl cfg o img (some p) = some (some p')) :
    ∃ es, Sent es p p' ∧ EndsAtRest es ∧ ∀ q k, CutOff es k q → Special.rasterAny fl cfg o img (some q) = none := by
  unfold Special.rasterAny at h ⊢
  obtain ⟨c, hc, h⟩ := Option.bind_eq_some_iff.1 h
  obtain ⟨_, hn, h⟩ := Option.bind_eq_some_iff.1 h
  simp only at h
  obtain ⟨⟨r, q⟩, hr, h⟩ := Option.bind_eq_some_iff.1 h
  obtain ⟨-, h2, -⟩ := C121_raster_events fl cfg o img hi c hw hc
  cases r with
  | error err => cases h
  | ok u =>
    refine ⟨c.events, by cases h; exact C35_accepted _ _ _ hr, h2, fun q k hq => ?_⟩
    obtain ⟨code, q', _, _, _, _, _, hq, -⟩ := hq
    simp only [hc, hn, hq, Option.bind_eq_bind, Option.bind_some]

/-- C129, a finding: if events that end at rest burn something at some time and move an axis at some time, there are a device with which
the laser stays on for good after the run was cut off, and a device with which the axis exceeds every speed. -/
theorem C129_unsafe (es : List Event) (hr : EndsAtRest es) (w0 : ℤ) :
    (∀ τ, weightAt w0 es τ ≠ 0 → ∃ k q, CutOff es k q ∧ ∀ σ ≥ τ, weightAt w0 (es.take k) σ = weightAt w0 es τ) ∧
      ∀ i τ, accAt i es τ ≠ 0 → ∃ k q, CutOff es k q ∧ ∀ vMax, ∃ σ, vMax < |velAt i (es.take k) σ| := by
  constructor
  · intro τ h
    obtain ⟨k, h1, -, h2⟩ := C129_stays_on es hr w0 τ h
    exact ⟨k, failing k, failing_cut es k h1, h2⟩
  · intro i τ h
    obtain ⟨k, h1, -, h2⟩ := C129_runs_away es hr i τ h
    exact ⟨k, failing k, failing_cut es k h1, h2⟩

/-- The run of C122, which reaches a speed of -100: it ends at rest, but interrupted it may exceed every speed. -/
example : ∃ c, Special.svgEvents double tenSteps (fun _ => 20) (fun _ => 50) 12 [.goTo ⟨-100, 0⟩, .lineTo ⟨-105, 0⟩] (.fin 20) 1 = some c ∧
    ∃ i k q, CutOff c.events k q ∧ ∀ vMax, ∃ σ, vMax < |velAt i (c.events.take k) σ| := by
  obtain ⟨c, h, τ, hτ⟩ := fast_runs.1
  obtain ⟨-, hr, -⟩ := C121_svg_events _ _ _ _ _ _ _ _ _ h
  have hne : ∃ σ, accAt .x c.events σ ≠ 0 := by
    by_contra hno
    push Not at hno
    have := (coast (i := .x) (es := c.events) (a := 0) (n := τ) fun σ _ _ => hno σ).1
    rw [Nat.zero_add, hτ] at this
    simp [velAt, played, endVel] at this
  obtain ⟨σ, hσ⟩ := hne
  exact ⟨c, h, .x, (C129_unsafe c.events hr 0).2 .x σ hσ⟩

/-- Three commands, of which the device accepts two before the line fails: at tick 30 the laser would have been switched off. -/
example : CutOff [⟨0, .weight 200⟩, ⟨5, .acc .x 3⟩, ⟨25, .weight 0⟩] 2 (failing 2) ∧
    (∀ σ ≥ 5, weightAt 0 ([⟨0, .weight 200⟩, ⟨5, .acc .x 3⟩, ⟨25, .weight 0⟩].take 2) σ = 200) ∧
    weightAt 0 [⟨0, .weight 200⟩, ⟨5, .acc .x 3⟩, ⟨25, .weight 0⟩] 30 = 0 ∧
    velAt .x ([⟨0, .weight 200⟩, ⟨5, .acc .x 3⟩, ⟨25, .weight 0⟩].take 2) 15 = 30 := by
  refine ⟨failing_cut _ 2 (by decide), fun σ hσ => ?_, by decide, by decide⟩
  have := (C129_after [⟨0, .weight 200⟩, ⟨5, .acc .x 3⟩] (σ - 5)).1 0
  rw [show duration [⟨0, .weight 200⟩, ⟨5, .acc .x 3⟩] = 5 from rfl, Nat.add_sub_cancel' hσ] at this
  exact this

end StepperPaths.Props
