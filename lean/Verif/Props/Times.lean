import Verif.Proof.Times

/-! Property C118: times do not overflow. -/

namespace StepperPaths.Props
open Context Control Spec Proof IntegerCurve Config Raster StepperPaths.Svg Rounded StepperPaths.Cli

/-- The device answers the first question with the time `t`. -/
def Tells (p : Port) (t : ℤ) : Prop :=
  ∃ (r : List Char) (m : ℕ), '\n' ∉ r ∧ readInt r = some t ∧ i64Min ≤ t ∧ t ≤ i64Max ∧
    Delivers p.input p.reads (r ++ ['\n']) m ∧ p.writeOk p.writes = true

theorem delivers_of_readLoop {p : Port} {acc : List Char} {r : Except IoError (List Char) × Port} (h : readLoop p acc = some r) :
    ∀ line, r.1 = .ok line → ∃ bs m, line = acc ++ bs ∧ '\n' ∉ bs ∧ Delivers p.input p.reads (bs ++ ['\n']) m := by
  refine readLoop.partial_correctness (motive := fun p acc r => ∀ line, r.1 = .ok line →
    ∃ bs m, line = acc ++ bs ∧ '\n' ∉ bs ∧ Delivers p.input p.reads (bs ++ ['\n']) m)
    (fun loop ih p acc r h line hl => ?_) p acc r h
  unfold Port.read at h
  cases hi : p.input p.reads with
  | byte b =>
    rw [hi] at h
    simp only at h
    split at h
    · rename_i hb
      cases h
      cases hl
      refine ⟨[], p.reads + 1, by simp, by simp, ?_⟩
      rw [hb] at hi
      exact .byte hi (.nil _)
    · rename_i hb
      obtain ⟨bs, m, h1, h2, h3⟩ := ih _ _ _ h line hl
      refine ⟨b :: bs, m, by simp [h1], by simp [h2, Ne.symm hb], .byte hi h3⟩
  | empty =>
    rw [hi] at h
    obtain ⟨bs, m, h1, h2, h3⟩ := ih _ _ _ h line hl
    exact ⟨bs, m, h1, h2, by cases bs <;> exact .skip (.inl hi) h3⟩
  | timedOut =>
    rw [hi] at h
    obtain ⟨bs, m, h1, h2, h3⟩ := ih _ _ _ h line hl
    exact ⟨bs, m, h1, h2, by cases bs <;> exact .skip (.inr hi) h3⟩
  | error c =>
    rw [hi] at h
    cases h
    cases hl

theorem tells_iff (p : Port) (t : ℤ) : Tells p t ↔ ∃ q, requestTime p = some (t, q) := by
  constructor
  · rintro ⟨r, m, h0, h1, h2, h3, h4, h5⟩
    have h6 := fun l => C37_line { p with writes := p.writes + 1, log := l } r m h0 h4
    have hp : parseI64 r = some t := by
      rw [parseI64_eq, h1]
      simp [Option.filter, h2, h3]
    unfold requestTime
    simp only [Port.write, h5, if_true, Option.bind_eq_bind, Option.bind_some, h6, hp, Option.map_some]
    exact ⟨_, rfl⟩
  · rintro ⟨q, h⟩
    unfold requestTime at h
    obtain ⟨q1, hw, h1⟩ := Option.bind_eq_some_iff.1 h
    obtain ⟨⟨r0, q2⟩, hr, h1⟩ := Option.bind_eq_some_iff.1 h1
    cases r0 with
    | error e => cases h1
    | ok r0 =>
      obtain ⟨t', ht, h1⟩ := Option.map_eq_some_iff.1 h1
      cases h1
      rw [parseI64_eq] at ht
      obtain ⟨g1, g2⟩ := Option.filter_eq_some_iff.1 ht
      obtain ⟨bs, m, k1, k2, k3⟩ := delivers_of_readLoop hr _ rfl
      rw [List.nil_append] at k1
      subst k1
      simp only [decide_eq_true_eq] at g2
      unfold Port.write at hw
      split at hw
      · rename_i hw1
        cases hw
        exact ⟨_, m, k2, g1, g2.1, g2.2, k3, hw1⟩
      · cases hw

/-- C118: an overflow of the times is a panic; otherwise `play_events` does what it does with unbounded times. -/
theorem C118_same (p : Port) (es : List Event) (r : Except IoError Unit × Port) (h : Checked.playEvents p es = some r) :
    playEvents p es = some r := by
  unfold Checked.playEvents at h
  unfold playEvents
  obtain ⟨⟨t, q⟩, h1, h⟩ := Option.bind_eq_some_iff.1 h
  obtain ⟨t', h2, h⟩ := Option.bind_eq_some_iff.1 h
  obtain ⟨rfl, -⟩ := add_some.1 h2
  rw [h1]
  exact playLoop_some h

/-- C118: there is none, if the time that the device tells, one second and the length of the motion fit in an `i64`. -/
theorem C118_fits (p : Port) (es : List Event) (h : ∀ t, Tells p t → t + 128 + ticksOf es ≤ i64Max) :
    Checked.playEvents p es = playEvents p es := by
  have back : ∀ r, playEvents p es = some r → Checked.playEvents p es = some r := by
    intro r hr
    unfold playEvents at hr
    unfold Checked.playEvents
    obtain ⟨⟨t, q⟩, h1, hr⟩ := Option.bind_eq_some_iff.1 hr
    have ht := (tells_iff p t).2 ⟨q, h1⟩
    have h2 := h t ht
    obtain ⟨_, _, -, -, h3, -⟩ := ht
    rw [h1]
    simp only [bind, Option.bind_some]
    rw [add_some.2 ⟨rfl, by omega, by omega⟩]
    exact playLoop_fits (by omega) (by simpa using h2) hr
  cases hr : playEvents p es with
  | some r => exact back r hr
  | none =>
    cases hc : Checked.playEvents p es with
    | none => rfl
    | some r => rw [C118_same p es r hc] at hr; cases hr

/-- C118: a device that tells a time within 128 ticks of the largest number stops the program before the first event. -/
theorem C118_start (p : Port) (es : List Event) (t : ℤ) (ht : Tells p t) (h : i64Max < t + 128) :
    Checked.playEvents p es = none := by
  obtain ⟨q, h1⟩ := (tells_iff p t).1 ht
  unfold Checked.playEvents
  rw [h1]
  simp only [bind, Option.bind_some]
  rw [Option.bind_eq_none_iff]
  intro t' h2
  obtain ⟨rfl, -, h3⟩ := add_some.1 h2
  omega

/-- C118: and if the motion ends later than the largest number, it is not sent to the end. -/
theorem C118_late (p q : Port) (es : List Event) (t : ℤ) (ht : Tells p t) (h : i64Max < t + 128 + ticksOf es) :
    Checked.playEvents p es ≠ some (.ok (), q) := by
  intro hr
  obtain ⟨q', h1⟩ := (tells_iff p t).1 ht
  unfold Checked.playEvents at hr
  rw [h1] at hr
  simp only [bind, Option.bind_some] at hr
  obtain ⟨t', h2, hr⟩ := Option.bind_eq_some_iff.1 hr
  obtain ⟨rfl, -, h3⟩ := add_some.1 h2
  have := playLoop_end hr h3
  simp only [List.nil_append] at this
  omega

/-- C118: fewer than 2^32 events do not let the `u64` tick counters overflow, in any reachable state; their times, which are `u32`,
sum up to at most 2^32 - 1 for each event. -/
theorem C118_ticks (aMax vMax : Axis → ℤ) (c : Ctx) (h : Reach aMax vMax c) :
    (∀ i, (c.channels i).ticks ≤ (2 ^ 32 - 1) * c.events.length) ∧ ticksOf c.events ≤ (2 ^ 32 - 1) * c.events.length ∧
    (c.events.length < 2 ^ 32 → ∀ i, (c.channels i).ticks < 2 ^ 64) := by
  have F := Few.reach h
  refine ⟨fun i => F.ticks i, ticksOf_le F.event, fun hl i => ?_⟩
  have := F.ticks i
  omega

/-- C118: so for a device that tells times up to 2^62, what fewer than 2^30 events of a reachable state are sent as does not
overflow. -/
theorem C118_context (aMax vMax : Axis → ℤ) (c : Ctx) (h : Reach aMax vMax c) (hl : c.events.length < 2 ^ 30) (p : Port)
    (hp : ∀ t, Tells p t → t ≤ 2 ^ 62) : Checked.playEvents p c.events = playEvents p c.events := by
  refine C118_fits p _ fun t ht => ?_
  have h1 := hp t ht
  have h2 := (C118_ticks aMax vMax c h).2.1
  have h3 : (2 ^ 32 - 1) * c.events.length ≤ (2 ^ 32 - 1) * (2 ^ 30 - 1) := Nat.mul_le_mul_left _ (by omega)
  have h4 : ticksOf c.events ≤ (2 ^ 32 - 1) * (2 ^ 30 - 1) := h2.trans h3
  have h5 : i64Max = 9223372036854775807 := rfl
  rw [h5]
  norm_num at h1 h4 ⊢
  omega

/-- C118: `svg_path` with checked times. -/
theorem C118_svg (fl : ℝ → ℝ) (lib : Lib) (e : Rounded.Env) (cfg : Xy) (o : SvgNumbers) (layer : Option Arg)
    (doc : List XmlEvent) (port : Option Port) :
    (∀ r, Checked.svgTimed fl lib e cfg o layer doc port = some r → Special.svgAny fl lib e cfg o layer doc port = some r) ∧
    ((∀ p ∈ port, ∀ t, Tells p t → ∀ w path c, parseDocumentF fl lib (Program.keepOf layer) .identity doc = some (.ok path) →
        Special.svgEvents fl { e with stepScale := fun i => (cfg.stepper i).stepsPerMillimeter }
          (Special.svgALimit fl cfg (o.aMax.map (.ofF64 fl))) (Special.vLimit fl cfg (o.vMax.map (.ofF64 fl))) w path
          (Special.drawSpeed fl cfg (o.drawSpeed.map (.ofF64 fl))) (o.repeats.getD 1).toNat = some c →
        t + 128 + ticksOf c.events ≤ i64Max) →
      Checked.svgTimed fl lib e cfg o layer doc port = Special.svgAny fl lib e cfg o layer doc port) := by
  unfold Checked.svgTimed Special.svgAny
  cases CheckedSvg.weight (o.intensity.getD 5) with
  | none => exact ⟨fun r h => h, fun _ => rfl⟩
  | some w =>
    simp only [bind, Option.bind_some]
    generalize parseDocumentF fl lib (Program.keepOf layer) .identity doc = res
    rcases res with _ | res
    · exact ⟨fun r h => h, fun _ => rfl⟩
    cases res with
    | ok path =>
      simp only
      cases hc : Special.svgEvents fl { e with stepScale := fun i => (cfg.stepper i).stepsPerMillimeter }
        (Special.svgALimit fl cfg (o.aMax.map (.ofF64 fl))) (Special.vLimit fl cfg (o.vMax.map (.ofF64 fl))) w path
        (Special.drawSpeed fl cfg (o.drawSpeed.map (.ofF64 fl))) (o.repeats.getD 1).toNat with
      | none => exact ⟨fun r h => h, fun _ => rfl⟩
      | some c =>
        simp only [Option.bind_some]
        cases port with
        | none => exact ⟨fun r h => h, fun _ => rfl⟩
        | some p =>
          simp only
          constructor
          · intro r h
            obtain ⟨_, h0, h⟩ := Option.bind_eq_some_iff.1 h
            obtain ⟨a, h1, h⟩ := Option.bind_eq_some_iff.1 h
            rw [h0, Option.bind_some, C118_same _ _ _ h1]
            exact h
          · intro h
            rw [C118_fits p c.events fun t ht => h p rfl t ht _ _ c rfl hc]
            rfl
    | _ => exact ⟨fun r h => h, fun _ => rfl⟩

/-- C118: `image_raster` with checked times. -/
theorem C118_raster (fl : ℝ → ℝ) (cfg : Xy) (o : RasterNumbers) (img : Image) (port : Option Port) :
    (∀ r, Checked.rasterTimed fl cfg o img port = some r → Special.rasterAny fl cfg o img port = some r) ∧
    ((∀ p ∈ port, ∀ t, Tells p t → ∀ c, Special.rasterEvents fl cfg o img = some c → t + 128 + ticksOf c.events ≤ i64Max) →
      Checked.rasterTimed fl cfg o img port = Special.rasterAny fl cfg o img port) := by
  unfold Checked.rasterTimed Special.rasterAny
  cases hc : Special.rasterEvents fl cfg o img with
  | none => exact ⟨fun r h => h, fun _ => rfl⟩
  | some c =>
    simp only [bind, Option.bind_some]
    cases port with
    | none => exact ⟨fun r h => h, fun _ => rfl⟩
    | some p =>
      simp only
      constructor
      · intro r h
        obtain ⟨_, h0, h⟩ := Option.bind_eq_some_iff.1 h
        obtain ⟨a, h1, h⟩ := Option.bind_eq_some_iff.1 h
        rw [h0, Option.bind_some, C118_same _ _ _ h1]
        exact h
      · intro h
        rw [C118_fits p c.events fun t ht => h p rfl t ht c rfl]
        rfl

/-! ### Examples -/

theorem tells_quick (r rest : String) (t : ℤ) (h0 : '\n' ∉ r.toList) (h1 : readInt r.toList = some t) (h2 : i64Min ≤ t) (h3 : t ≤ i64Max) :
    Tells (quickPort (String.ofList (r.toList ++ ['\n'] ++ rest.toList))) t := by
  have h := quickPort_delivers (String.ofList (r.toList ++ ['\n'] ++ rest.toList))
  rw [String.toList_ofList] at h
  obtain ⟨k, k1, -⟩ := delivers_split _ _ h
  exact ⟨r.toList, k, h0, h1, h2, h3, k1, rfl⟩

/-- Three events at the time 17. -/
example : Checked.playEvents (quickPort "17\nOK\nOK\nOK\n") [⟨0, .acc .x 3⟩, ⟨10, .weight 200⟩, ⟨0, .acc .x (-3)⟩] =
    playEvents (quickPort "17\nOK\nOK\nOK\n") [⟨0, .acc .x 3⟩, ⟨10, .weight 200⟩, ⟨0, .acc .x (-3)⟩] := by
  refine C118_fits _ _ fun t ht => ?_
  obtain ⟨q, hq⟩ := (tells_iff _ t).1 ht
  obtain ⟨q', hq'⟩ := (tells_iff _ 17).1 (tells_quick "17" "OK\nOK\nOK\n" 17 (by decide) (by decide) (by decide) (by decide))
  have : (quickPort "17\nOK\nOK\nOK\n") = quickPort (String.ofList ("17".toList ++ ['\n'] ++ "OK\nOK\nOK\n".toList)) := rfl
  rw [this, hq'] at hq
  cases hq
  decide

/-- A device whose clock is at its end. -/
example (es : List Event) (rest : String) :
    Checked.playEvents (quickPort (String.ofList ("9223372036854775700".toList ++ ['\n'] ++ rest.toList))) es = none :=
  C118_start _ _ 9223372036854775700 (tells_quick "9223372036854775700" rest _ (by decide) (by decide +kernel) (by decide) (by decide)) (by decide)

/-- A device whose clock ends during the motion. -/
example (q : Port) (rest : String) :
    Checked.playEvents (quickPort (String.ofList ("9223372036854775000".toList ++ ['\n'] ++ rest.toList)))
      [⟨0, .acc .x 3⟩, ⟨1000, .acc .x 0⟩] ≠ some (.ok (), q) :=
  C118_late _ _ _ 9223372036854775000 (tells_quick "9223372036854775000" rest _ (by decide) (by decide +kernel) (by decide) (by decide)) (by decide)

/-- Two intervals of the greatest length, and what is sent for them. -/
example (p : Port) (hp : ∀ t, Tells p t → t ≤ 2 ^ 62) :
    ∃ c, Reach (fun _ => 1) (fun _ => 9) c ∧ (c.channels .x).ticks = 2 ^ 32 - 2 ∧ Checked.playEvents p c.events = playEvents p c.events := by
  have h1 : ∃ c, (Op.addAcc 0 0 (2 ^ 31 - 1)).run (Ctx.new (fun _ => 1) (fun _ => 9)) = some c ∧ (c.channels .x).ticks = 2 ^ 31 - 1 ∧
      ∃ c', (Op.addAcc 0 0 (2 ^ 31 - 1)).run c = some c' ∧ (c'.channels .x).ticks = 2 ^ 32 - 2 ∧ c'.events.length = 4 :=
    ⟨_, rfl, rfl, _, rfl, rfl, rfl⟩
  obtain ⟨c, r1, -, c', r2, t2, l2⟩ := h1
  have R : Reach (fun _ => 1) (fun _ => 9) c' := .step (.step .new (by norm_num [Op.Fits]) r1) (by norm_num [Op.Fits]) r2
  exact ⟨c', R, t2, C118_context _ _ c' R (by rw [l2]; norm_num) p hp⟩

end StepperPaths.Props
