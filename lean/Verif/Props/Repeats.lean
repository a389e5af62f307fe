import Verif.Proof.Repeats
import Verif.Props.Interrupted
import Verif.Props.Power

/-!
C142: `svg_path` repeats without changing what it has done before.
-/

namespace StepperPaths.Props
open Coords Curves Context Control Spec Proof IntegerCurve Rounded Config StepperPaths.Cli
open Draw (Seg)
open Special (Num)

/-- Each repetition has its commands, whatever the number of repetitions is, and after those of the last one the laser stays off. -/
structure Repeated (pass : ℕ → List Event) (n : ℕ) (es : List Event) : Prop where
  commands : ∃ home, es = (List.range n).flatMap pass ++ home
  off : ∀ τ ≥ duration ((List.range n).flatMap pass), weightAt 0 es τ = 0

/-- C142: the commands. -/
theorem C142_svg_events (fl : ℝ → ℝ) (e : Rounded.Env) (aMax vMax : Axis → ℤ) (w : ℤ) (path : List Seg) (v : Num) :
    ∃ pass : ℕ → List Event, ∀ n c, Special.svgEvents fl e aMax vMax w path v n = some c → Repeated pass n c.events := by
  obtain ⟨pass, h⟩ := Repeats.svg_passes fl e aMax vMax w path v
  refine ⟨pass, fun n c hc => ?_⟩
  obtain ⟨home, h1, h2⟩ := h n c hc
  exact ⟨⟨home, h1⟩, h2⟩

/-- C142: with a device. -/
theorem C142_svg (fl : ℝ → ℝ) (lib : Lib) (e : Rounded.Env) (cfg : Xy) (o : SvgNumbers) (layer : Option Cli.Arg) (doc : List Svg.XmlEvent) :
    ∃ pass : ℕ → List Event, ∀ r p p', Special.svgAny fl lib e cfg { o with repeats := r } layer doc (some p) = some (some p') →
      ∃ es, Sent es p p' ∧ Repeated pass (r.getD 1).toNat es := by
  cases hw : CheckedSvg.weight (o.intensity.getD 5) with
  | none =>
    refine ⟨fun _ => [], fun r p p' h => ?_⟩
    unfold Special.svgAny at h
    obtain ⟨w, hw', -⟩ := Option.bind_eq_some_iff.1 h
    rw [hw] at hw'
    cases hw'
  | some w =>
    cases hd : Rounded.parseDocumentF fl lib (Program.keepOf layer) .identity doc with
    | none =>
      refine ⟨fun _ => [], fun r p p' h => ?_⟩
      unfold Special.svgAny at h
      rw [hd] at h
      obtain ⟨_, -, h⟩ := Option.bind_eq_some_iff.1 h
      cases h
    | some x =>
      cases x with
      | err | panic =>
        refine ⟨fun _ => [], fun r p p' h => ?_⟩
        unfold Special.svgAny at h
        rw [hd] at h
        obtain ⟨_, -, h⟩ := Option.bind_eq_some_iff.1 h
        cases h
      | ok path =>
        obtain ⟨pass, hp⟩ := C142_svg_events fl { e with stepScale := fun i => (cfg.stepper i).stepsPerMillimeter }
          (Special.svgALimit fl cfg (o.aMax.map (.ofF64 fl))) (Special.vLimit fl cfg (o.vMax.map (.ofF64 fl))) w path
          (Special.drawSpeed fl cfg (o.drawSpeed.map (.ofF64 fl)))
        refine ⟨pass, fun r p p' h => ?_⟩
        unfold Special.svgAny at h
        rw [hd] at h
        obtain ⟨w', hw', h⟩ := Option.bind_eq_some_iff.1 h
        obtain rfl : w = w' := Option.some.inj (hw.symm.trans hw')
        simp only at h
        obtain ⟨c, hc, h⟩ := Option.bind_eq_some_iff.1 h
        obtain ⟨_, -, h⟩ := Option.bind_eq_some_iff.1 h
        obtain ⟨⟨y, q⟩, hr, h⟩ := Option.bind_eq_some_iff.1 h
        cases y with
        | error err => cases h
        | ok u =>
          cases h
          exact ⟨c.events, C35_accepted _ _ _ hr, hp _ c hc⟩

theorem same_start (a l : List Event) (τ : ℕ) (h : τ < duration a) :
    (∀ w0, weightAt w0 (a ++ l) τ = weightAt w0 a τ) ∧
      ∀ i, accAt i (a ++ l) τ = accAt i a τ ∧ velAt i (a ++ l) (τ + 1) = velAt i a (τ + 1) ∧ posAt i (a ++ l) (τ + 1) = posAt i a (τ + 1) := by
  have k := C129_same (a ++ l) a.length τ (by
    rw [List.take_append, List.take_of_length_le (by omega), duration_append]
    omega)
  rw [List.take_left'] at k
  · exact ⟨fun w0 => (k.1 w0).symm, fun i => ⟨(k.2 i).1.symm, (k.2 i).2.1.symm, (k.2 i).2.2.symm⟩⟩
  · rfl

/-- C142: of two runs the one with more repetitions does the same as the other one until that one returns home with the laser off. -/
theorem C142_motion (pass : ℕ → List Event) (n m : ℕ) (hnm : n ≤ m) (es es' : List Event) (h : Repeated pass n es) (h' : Repeated pass m es') :
    ∃ T, (∀ τ < T, (∀ w0, weightAt w0 es τ = weightAt w0 es' τ) ∧ ∀ i, accAt i es τ = accAt i es' τ ∧
      velAt i es (τ + 1) = velAt i es' (τ + 1) ∧ posAt i es (τ + 1) = posAt i es' (τ + 1)) ∧ ∀ τ ≥ T, weightAt 0 es τ = 0 := by
  refine ⟨duration ((List.range n).flatMap pass), fun τ hτ => ?_, h.off⟩
  obtain ⟨home, rfl⟩ := h.commands
  obtain ⟨home', rfl⟩ := h'.commands
  obtain ⟨k, rfl⟩ := Nat.exists_eq_add_of_le hnm
  rw [List.range_add, List.flatMap_append, List.append_assoc]
  have k1 := same_start ((List.range n).flatMap pass) home τ hτ
  have k2 := same_start ((List.range n).flatMap pass) (((List.range k).map (n + ·)).flatMap pass ++ home') τ hτ
  exact ⟨fun w0 => (k1.1 w0).trans (k2.1 w0).symm, fun i => ⟨(k1.2 i).1.trans (k2.2 i).1.symm, (k1.2 i).2.1.trans (k2.2 i).2.1.symm,
    (k1.2 i).2.2.trans (k2.2 i).2.2.symm⟩⟩

/-! ### Examples -/

/-- The run of C122: the speed of 100 to the left occurs in the part that is the same for any greater number of repetitions. -/
example : ∃ c pass, Special.svgEvents double tenSteps (fun _ => 20) (fun _ => 50) 12 [.goTo ⟨-100, 0⟩, .lineTo ⟨-105, 0⟩] (.fin 20) 1 = some c ∧
    Repeated pass 1 c.events ∧ ∀ n c', Special.svgEvents double tenSteps (fun _ => 20) (fun _ => 50) 12 [.goTo ⟨-100, 0⟩, .lineTo ⟨-105, 0⟩]
      (.fin 20) n = some c' → Repeated pass n c'.events := by
  obtain ⟨c, h, -⟩ := fast_runs.1
  obtain ⟨pass, k⟩ := C142_svg_events double tenSteps (fun _ => 20) (fun _ => 50) 12 [.goTo ⟨-100, 0⟩, .lineTo ⟨-105, 0⟩] (.fin 20)
  exact ⟨c, pass, h, k 1 c h, k⟩

/-- One repetition and two ones: the second one begins where the first one ends. -/
example : ∃ pass, Repeated pass 1 [⟨0, .weight 7⟩, ⟨5, .weight 0⟩, ⟨2, .acc .x 1⟩] ∧
    Repeated pass 2 [⟨0, .weight 7⟩, ⟨5, .weight 0⟩, ⟨1, .weight 7⟩, ⟨5, .weight 0⟩, ⟨2, .acc .x 2⟩] := by
  have off : ∀ (b l : List Event), Repeats.Closed b → (∀ ev ∈ l, Repeats.Dark ev.cmd) → ∀ τ ≥ duration b, weightAt 0 (b ++ l) τ = 0 :=
    fun b l h hl τ hτ => h.dark l hl τ hτ
  refine ⟨fun k => if k = 0 then [⟨0, .weight 7⟩, ⟨5, .weight 0⟩] else [⟨1, .weight 7⟩, ⟨5, .weight 0⟩], ⟨⟨[⟨2, .acc .x 1⟩], rfl⟩, ?_⟩,
    ⟨⟨[⟨2, .acc .x 2⟩], rfl⟩, ?_⟩⟩
  · refine off [⟨0, .weight 7⟩, ⟨5, .weight 0⟩] [⟨2, .acc .x 1⟩] (fun τ hτ => ?_) (fun ev h => ?_)
    · simp only [duration, weightAt, valueFrom, weightAfter] at hτ ⊢
      rw [if_neg (by omega), if_neg (by omega)]
    · rw [List.mem_singleton.1 h]
      exact Repeats.dark_acc _ _
  · refine off [⟨0, .weight 7⟩, ⟨5, .weight 0⟩, ⟨1, .weight 7⟩, ⟨5, .weight 0⟩] [⟨2, .acc .x 2⟩] (fun τ hτ => ?_) (fun ev h => ?_)
    · simp only [duration, weightAt, valueFrom, weightAfter] at hτ ⊢
      rw [if_neg (by omega), if_neg (by omega), if_neg (by omega), if_neg (by omega)]
    · rw [List.mem_singleton.1 h]
      exact Repeats.dark_acc _ _

end StepperPaths.Props
