import Verif.Proof.InsideDraw
import Verif.Props.AnyDrawing

/-!
C138: whatever `svg_path` is given, between the strokes it goes from one to the next without detours.
-/

namespace StepperPaths.Props
open Coords Curves Context Control Spec Proof IntegerCurve Rounded Config StepperPaths.Cli
open Draw (Seg Past coord)
open Special (Num)

/-- At every tick the laser has the power `w`, or the tick belongs to a move with the laser off that does not overshoot. -/
def MovesDirectly (aMax : Axis → ℤ) (w : ℤ) (es : List Event) : Prop :=
  ∀ τ, (∀ w0, weightAt w0 es τ = w) ∨ ∃ t a, t ≤ τ ∧ τ < a ∧ DirectMove aMax es t a

/-- C138: `svg_path` with any limits, path and speed. -/
theorem C138_svg_events (fl : ℝ → ℝ) (e : Rounded.Env) (aMax vMax : Axis → ℤ) (ha : ∀ i, 0 ≤ aMax i) (hv : ∀ i, vMax i < 2 ^ 31) (w : ℤ)
    (path : List Seg) (v : Num) (n : ℕ) (c : Ctx) (h : Special.svgEvents fl e aMax vMax w path v n = some c) :
    MovesDirectly aMax w c.events := by
  have L := Limits.of_svg ha hv h
  obtain ⟨-, M⟩ := (InsideDraw.draws L w).svg (InsideDraw.new L w) h
  obtain ⟨c1, c2, h1, h2, h3⟩ := svg_last h
  have A1 := (AnyDraw.Along.draws L w).times (AnyDraw.Along.new L w) h1
  have A2 := (AnyDraw.Along.draws L w).goto A1 h2
  obtain ⟨-, -, -, q1, -, -, -, -, -, -, q2, q3, -⟩ := readEvents_spec A2.sync.inv.1 h3
  obtain ⟨-, p⟩ := read_past A2.sync h3
  intro τ
  by_cases hτ : τ < (c.channels .x).ticks
  · obtain h | ⟨t, a, k1, k2, -, k3⟩ := M τ hτ
    · exact .inl h
    · exact .inr ⟨t, a, k1, k2, k3⟩
  · rw [q1] at hτ
    refine .inr ⟨τ, τ + 1, le_rfl, by omega, fun w0 σ h4 h5 => by rw [q3, if_neg (by omega), A2.mw], fun i σ h4 h5 => ?_⟩
    have z : (c2.channels i).v = 0 := by
      rw [(InsideScan.goto_inside L A1.sync A1.now h2 i).2.1]
      cases i <;> rfl
    have rest : ∀ σ ≥ (c2.channels .x).ticks, posAt i c.events σ = posAt i c.events (c2.channels .x).ticks := by
      intro σ hσ
      obtain ⟨m, rfl⟩ := Nat.exists_eq_add_of_le hσ
      obtain ⟨-, r⟩ := Raster.coast (i := i) (es := c.events) (a := (c2.channels .x).ticks) (n := m)
        (fun τ k1 _ => by rw [q2, if_neg (by omega)])
      have e1 : velAt i c.events (c2.channels .x).ticks = 0 := by
        rw [AnyDraw.past_vel A2.sync p i le_rfl, ← Raster.same_ticks A2.sync i, ← A2.sync.reach.inv.2.1.vel i, z]
      rw [r, e1]
      simp
    rw [rest σ (by omega), rest τ (by omega), rest (τ + 1) (by omega)]
    have r0 : 0 ≤ turnRoom (aMax i) (velAt i c.events τ) := InsideScan.reach_nonneg (L.acc i) _
    omega

/-- C138: an axis that is at rest at both ends of such a move is between its places at the ends all the time. -/
theorem C138_rest (aMax : Axis → ℤ) (es : List Event) (t a : ℕ) (h : DirectMove aMax es t a) (i : Axis)
    (h1 : velAt i es t = 0) (h2 : velAt i es a = 0) (τ : ℕ) (k1 : t ≤ τ) (k2 : τ ≤ a) :
    min (posAt i es t) (posAt i es a) ≤ posAt i es τ ∧ posAt i es τ ≤ max (posAt i es t) (posAt i es a) := by
  have := h.2 i τ k1 k2
  rw [h1, h2] at this
  simpa [turnRoom] using this

/-- C138: `svg_path` with a device. -/
theorem C138_svg (fl : ℝ → ℝ) (lib : Lib) (e : Rounded.Env) (cfg : Xy) (o : SvgNumbers) (layer : Option Cli.Arg)
    (doc : List Svg.XmlEvent) (p p' : Port) (h : Special.svgAny fl lib e cfg o layer doc (some p) = some (some p')) :
    ∃ es, Sent es p p' ∧ MovesDirectly (Special.svgALimit fl cfg (o.aMax.map (.ofF64 fl))) (Program.weightOf (o.intensity.getD 5)) es := by
  unfold Special.svgAny at h
  obtain ⟨w, hw, h⟩ := Option.bind_eq_some_iff.1 h
  obtain rfl : w = Program.weightOf (o.intensity.getD 5) := by
    obtain ⟨a, ha, hw⟩ := Option.bind_eq_some_iff.1 hw
    cases hw
    rw [(toI32_eq ha).1]
    rfl
  split at h
  · rename_i path hp
    obtain ⟨c, hc, h⟩ := Option.bind_eq_some_iff.1 h
    obtain ⟨_, -, h⟩ := Option.bind_eq_some_iff.1 h
    simp only at h
    obtain ⟨⟨r, q⟩, hr, h⟩ := Option.bind_eq_some_iff.1 h
    have key := C138_svg_events fl _ _ _ (svgALimit_nonneg _ _ _) (vLimit_lt _ _ _) _ _ _ _ _ hc
    cases r with
    | error err => cases h
    | ok u =>
      cases h
      exact ⟨c.events, C35_accepted _ _ _ hr, key⟩
  · cases h

/-- C138: with any arguments and any files. -/
theorem C138_svg_command (fl : ℝ → ℝ) (lib : Lib) (e : Rounded.Env) (w : World (List Svg.XmlEvent)) (args : List Cli.Arg)
    (p' : Port) (h : (svgCommand (Special.svgAny fl lib e) w args).out = .done (some p')) :
    ∃ m name file dev p cfg o doc es, getopts svgOpts args = some m ∧ m.str "config" = some name ∧ m.free.head? = some file ∧
      m.str "device" = some dev ∧ w.config name = some cfg ∧ w.picture file = some doc ∧ w.device dev = some p ∧ svgNumbers m = .ok o ∧
      Special.svgAny fl lib e cfg o (m.str "layer") doc (some p) = some (some p') ∧ Sent es p p' ∧
      MovesDirectly (Special.svgALimit fl cfg (o.aMax.map (.ofF64 fl))) (Program.weightOf (o.intensity.getD 5)) es := by
  obtain ⟨m, name, file, dev, p, cfg, o, doc, h1, h2, h3, h4, h5, h6, h7, h8, h9⟩ := svgCommand_used h svgAny_none
  obtain ⟨es, k1, k2⟩ := C138_svg fl lib e cfg o (m.str "layer") doc p p' h9
  exact ⟨m, name, file, dev, p, cfg, o, doc, es, h1, h2, h3, h4, h5, h6, h7, h8, h9, k1, k2⟩

/-! ### Examples -/

/-- The run of C122: the head gets to a speed of 100 half steps for each tick, and all its moves are direct. -/
example : ∃ c, Special.svgEvents double tenSteps (fun _ => 20) (fun _ => 50) 12 [.goTo ⟨-100, 0⟩, .lineTo ⟨-105, 0⟩] (.fin 20) 1 = some c ∧
    (∃ τ, velAt .x c.events τ = -100) ∧ MovesDirectly (fun _ => 20) 12 c.events :=
  let ⟨c, h, hτ⟩ := fast_runs.1
  ⟨c, h, hτ, C138_svg_events double tenSteps _ _ (fun _ => by norm_num) (fun _ => by norm_num) _ _ _ _ c h⟩

/-- To turn around from 100 half steps for each tick with an acceleration of 20 takes at most 600 half steps. -/
example : turnRoom 20 (-100) = 600 := by decide

/-- The quarter circle and the line of C103. -/
example (pw : ℝ → ℝ → ℝ) (hpw : FloatPow pw) (lib : Lib) (hlib : FloatLib lib) (hang : FloatAngles lib)
    (hat : ∀ y x, double (lib.atan2 y x) = lib.atan2 y x) (e : Rounded.Env) (he : e.stepScale = fun _ => 80)
    (hf : Searches e) (hC : FloatCurves double pw lib.sin lib.cos e) :
    ∃ p p' es, Special.svgAny double lib e quickXy ⟨none, none, none, some 1, some 100⟩ none roundDoc.events (some p) = some (some p') ∧
      Sent es p p' ∧ MovesDirectly (Special.svgALimit double quickXy none) 254 es := by
  obtain ⟨p, p', -, h, -⟩ := round_burns pw hpw lib hlib hang hat e he hf hC
  obtain ⟨es, h1, h2⟩ := C138_svg double lib e quickXy _ none _ p p' h
  rw [show Program.weightOf ((some 100 : Option ℤ).getD 5) = 254 by decide] at h2
  exact ⟨p, p', es, h, h1, h2⟩

end StepperPaths.Props
