import Verif.Proof.Power
import Verif.Props.AnyDrawing

/-!
C139: the intensity that `svg_path` is given changes the power of the laser and nothing else.
-/

namespace StepperPaths.Props
open Coords Curves Context Control Spec Proof IntegerCurve Rounded Config StepperPaths.Cli
open Draw (Seg)
open Special (Num)

/-- C139: for all powers the same commands at the same times; only the weights are multiplied. And whether there is a result does not depend on
the power. -/
theorem C139_svg_events (fl : ℝ → ℝ) (e : Rounded.Env) (aMax vMax : Axis → ℤ) (path : List Seg) (v : Num) (n : ℕ) :
    (∃ plan : List Event, ∀ w c, Special.svgEvents fl e aMax vMax w path v n = some c → c.events = plan.map (withPower w)) ∧
    ∀ w w', (∃ c, Special.svgEvents fl e aMax vMax w path v n = some c) ↔ ∃ c, Special.svgEvents fl e aMax vMax w' path v n = some c := by
  have key : ∀ w, Special.svgEvents fl e aMax vMax w path v n = (Special.svgEvents fl e aMax vMax 1 path v n).map (Power.re w) := fun w => by
    have := Power.svg (w := w) (fl := fl) (e := e) aMax vMax 1 path v n
    rwa [one_mul] at this
  cases h : Special.svgEvents fl e aMax vMax 1 path v n with
  | none =>
    rw [h] at key
    exact ⟨⟨[], fun w c hc => by rw [key w] at hc; cases hc⟩, fun w w' => by rw [key w, key w', Option.map_none, Option.map_none]⟩
  | some c =>
    rw [h] at key
    refine ⟨⟨c.events, fun w c' hc => ?_⟩, fun w w' => ?_⟩
    · rw [key w] at hc
      cases hc
      rfl
    · rw [key w, key w']
      exact ⟨fun _ => ⟨_, rfl⟩, fun _ => ⟨_, rfl⟩⟩

/-- C139: so with two powers the machine is at the same place with the same speed and acceleration at each tick, and the laser is off in both
runs or has in each its power. -/
theorem C139_motion (fl : ℝ → ℝ) (e : Rounded.Env) (aMax vMax : Axis → ℤ) (path : List Seg) (v : Num) (n : ℕ) (w w' : ℤ) (c c' : Ctx)
    (h : Special.svgEvents fl e aMax vMax w path v n = some c) (h' : Special.svgEvents fl e aMax vMax w' path v n = some c') (τ : ℕ) :
    (∀ i, accAt i c.events τ = accAt i c'.events τ ∧ velAt i c.events τ = velAt i c'.events τ ∧ posAt i c.events τ = posAt i c'.events τ) ∧
    (weightAt 0 c.events τ = 0 ∧ weightAt 0 c'.events τ = 0 ∨ weightAt 0 c.events τ = w ∧ weightAt 0 c'.events τ = w') := by
  obtain ⟨⟨plan, hp⟩, ex⟩ := C139_svg_events fl e aMax vMax path v n
  obtain ⟨c1, h1⟩ := (ex w 1).1 ⟨c, h⟩
  obtain ⟨-, -, p1⟩ := C121_svg_events fl e aMax vMax 1 path v n c1 h1
  have acc : ∀ u c, Special.svgEvents fl e aMax vMax u path v n = some c → ∀ i τ, accAt i c.events τ = accAt i plan τ := fun u c hc i τ => by
    rw [hp u c hc]
    exact Power.acc_from i plan 0 0 τ
  have wt : ∀ u c, Special.svgEvents fl e aMax vMax u path v n = some c → weightAt 0 c.events τ = weightAt 0 plan τ * u := fun u c hc => by
    rw [hp u c hc]
    have := Power.weight_from (w := u) plan 0 0 τ
    rwa [zero_mul] at this
  have both : ∀ i, ∀ σ < τ, accAt i c.events σ = accAt i c'.events σ := fun i σ _ => by rw [acc w c h, acc w' c' h']
  refine ⟨fun i => ⟨by rw [acc w c h, acc w' c' h'], Raster.velAt_congr (both i) le_rfl, Raster.posAt_congr (both i) le_rfl⟩, ?_⟩
  have e1 := wt 1 c1 h1
  rw [wt w c h, wt w' c' h']
  rw [mul_one] at e1
  rw [← e1]
  rcases p1 0 τ with k | k
  · left
    rw [k]
    simp
  · right
    rw [k]
    simp

/-- C139: `svg_path` with a device. The commands that are sent are for all intensities the same, but for the power. -/
theorem C139_svg (fl : ℝ → ℝ) (lib : Lib) (e : Rounded.Env) (cfg : Xy) (o : SvgNumbers) (layer : Option Cli.Arg) (doc : List Svg.XmlEvent) :
    ∃ plan : List Event, ∀ k p p', Special.svgAny fl lib e cfg { o with intensity := k } layer doc (some p) = some (some p') →
      Sent (plan.map (withPower (Program.weightOf (k.getD 5)))) p p' := by
  cases hd : Rounded.parseDocumentF fl lib (Program.keepOf layer) .identity doc with
  | none =>
    refine ⟨[], fun k p p' h => ?_⟩
    unfold Special.svgAny at h
    rw [hd] at h
    obtain ⟨w, -, h⟩ := Option.bind_eq_some_iff.1 h
    cases h
  | some r =>
    cases r with
    | err | panic =>
      refine ⟨[], fun k p p' h => ?_⟩
      unfold Special.svgAny at h
      rw [hd] at h
      obtain ⟨w, -, h⟩ := Option.bind_eq_some_iff.1 h
      cases h
    | ok path =>
      obtain ⟨⟨plan, hp⟩, -⟩ := C139_svg_events fl { e with stepScale := fun i => (cfg.stepper i).stepsPerMillimeter }
        (Special.svgALimit fl cfg (o.aMax.map (.ofF64 fl))) (Special.vLimit fl cfg (o.vMax.map (.ofF64 fl))) path
        (Special.drawSpeed fl cfg (o.drawSpeed.map (.ofF64 fl))) (o.repeats.getD 1).toNat
      refine ⟨plan, fun k p p' h => ?_⟩
      unfold Special.svgAny at h
      rw [hd] at h
      obtain ⟨w, hw, h⟩ := Option.bind_eq_some_iff.1 h
      obtain rfl : w = Program.weightOf (k.getD 5) := by
        obtain ⟨a, ha, hw⟩ := Option.bind_eq_some_iff.1 hw
        cases hw
        rw [(toI32_eq ha).1]
        rfl
      simp only at h
      obtain ⟨c, hc, h⟩ := Option.bind_eq_some_iff.1 h
      obtain ⟨_, -, h⟩ := Option.bind_eq_some_iff.1 h
      obtain ⟨⟨r, q⟩, hr, h⟩ := Option.bind_eq_some_iff.1 h
      cases r with
      | error err => cases h
      | ok u =>
        cases h
        have := C35_accepted _ _ _ hr
        rwa [hp _ c hc] at this

/-- C139: without a device the run ends for all intensities or for none of them. -/
theorem C139_dry (fl : ℝ → ℝ) (lib : Lib) (e : Rounded.Env) (cfg : Xy) (o : SvgNumbers) (layer : Option Cli.Arg) (doc : List Svg.XmlEvent)
    (k k' : Option ℤ) (hk : 0 ≤ k.getD 5 ∧ k.getD 5 ≤ 100) (hk' : 0 ≤ k'.getD 5 ∧ k'.getD 5 ≤ 100) :
    Special.svgAny fl lib e cfg { o with intensity := k } layer doc none = Special.svgAny fl lib e cfg { o with intensity := k' } layer doc none := by
  have hw : ∀ x : ℤ, 0 ≤ x ∧ x ≤ 100 → CheckedSvg.weight x = some (Program.weightOf x) := fun x hx => by
    unfold CheckedSvg.weight toI32
    rw [if_pos (by omega)]
    rfl
  have key : ∀ j : Option ℤ, 0 ≤ j.getD 5 ∧ j.getD 5 ≤ 100 → Special.svgAny fl lib e cfg { o with intensity := j } layer doc none =
      Special.svgAny fl lib e cfg { o with intensity := some 1 } layer doc none := by
    intro j hj
    unfold Special.svgAny
    simp only [hw _ hj, Option.getD_some, hw 1 (by norm_num), Option.bind_eq_bind, Option.bind_some]
    split
    · have ex := (C139_svg_events fl { e with stepScale := fun i => (cfg.stepper i).stepsPerMillimeter }
        (Special.svgALimit fl cfg (o.aMax.map (.ofF64 fl))) (Special.vLimit fl cfg (o.vMax.map (.ofF64 fl))) (by assumption)
        (Special.drawSpeed fl cfg (o.drawSpeed.map (.ofF64 fl))) (o.repeats.getD 1).toNat).2 (Program.weightOf (j.getD 5)) (Program.weightOf 1)
      generalize Special.svgEvents _ _ _ _ (Program.weightOf (j.getD 5)) _ _ _ = x at *
      generalize Special.svgEvents _ _ _ _ (Program.weightOf 1) _ _ _ = y at *
      cases x <;> cases y
      · rfl
      · simp at ex
      · simp at ex
      · rfl
    · rfl
  rw [key k hk, key k' hk']

/-! ### Examples -/

/-- The run of C122 with any power. -/
example (w : ℤ) : ∃ c, Special.svgEvents double tenSteps (fun _ => 20) (fun _ => 50) w [.goTo ⟨-100, 0⟩, .lineTo ⟨-105, 0⟩] (.fin 20) 1 = some c ∧
    ∃ τ, velAt .x c.events τ = -100 := by
  obtain ⟨c, h, τ, hτ⟩ := fast_runs.1
  obtain ⟨c', h'⟩ := ((C139_svg_events double tenSteps (fun _ => 20) (fun _ => 50) [.goTo ⟨-100, 0⟩, .lineTo ⟨-105, 0⟩] (.fin 20) 1).2 12 w).1 ⟨c, h⟩
  exact ⟨c', h', τ, by rw [← ((C139_motion _ _ _ _ _ _ _ _ _ c c' h h' τ).1 .x).2.1]; exact hτ⟩

example : [⟨3, .weight 1⟩, ⟨2, .acc .x 7⟩, ⟨5, .weight 0⟩].map (withPower 12) = [⟨3, .weight 12⟩, ⟨2, .acc .x 7⟩, ⟨5, .weight 0⟩] := by decide

end StepperPaths.Props
