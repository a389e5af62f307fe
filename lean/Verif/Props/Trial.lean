import Verif.Props.Power
import Verif.Props.Outline

/-!
C141: a run without a device tells whether the same run with one will work.
-/

namespace StepperPaths.Props
open Coords Curves Context Control Spec Proof IntegerCurve Rounded Config StepperPaths.Cli Raster
open Special (Num)

/-- Without a device the program ends normally, or it panics. If it panics, it also does so with any device. If it ends normally, there is one list of
commands, which is what any device is sent by a run that ends normally, and the run does so with any device that is ready for them. -/
def Foretells (run : Option Port → Option (Option Port)) : Prop :=
  (run none = none ∧ ∀ p, run (some p) = none) ∨
    (run none = some none ∧ ∃ es, ∀ p, (∀ r, run (some p) = some r → ∃ p', r = some p' ∧ Sent es p p') ∧
      (Ready es p → ∃ p', run (some p) = some (some p')))

/-- Once there are commands, all that remains is to send them. -/
theorem play_ends (es : List Event) (p : Port) :
    (∀ r, (do match ← playEvents p es with
      | (.ok (), port) => some (some port)
      | (.error _, _) => none : Option (Option Port)) = some r → ∃ p', r = some p' ∧ Sent es p p') ∧
    (Ready es p → ∃ p', (do match ← playEvents p es with
      | (.ok (), port) => some (some port)
      | (.error _, _) => none : Option (Option Port)) = some (some p')) := by
  constructor
  · intro r h
    obtain ⟨⟨x, q⟩, hr, h⟩ := Option.bind_eq_some_iff.1 h
    cases x with
    | error err => cases h
    | ok u =>
      cases h
      exact ⟨q, rfl, C35_accepted _ _ _ hr⟩
  · rintro ⟨r0, t0, full, m, h1, h2, h3, h4, h5, h6⟩
    have e1 : (es.zip full).map Prod.fst = es := List.map_fst_zip (by omega)
    have e2 : (es.zip full).flatMap (fun x => answers x.2) = full.flatMap answers := by
      conv_rhs => rw [← List.map_snd_zip (l₁ := es) (l₂ := full) (by omega)]
      rw [List.flatMap_map]
    obtain ⟨p', hp, -⟩ := C35_returns p r0 t0 (es.zip full) m h2 h3 h4 (by rw [e2]; exact h5) h6
    rw [e1] at hp
    rw [hp]
    exact ⟨p', rfl⟩

/-- C141: `svg_path` with any document, options and configuration. -/
theorem C141_svg (fl : ℝ → ℝ) (lib : Lib) (e : Rounded.Env) (cfg : Xy) (o : SvgNumbers) (layer : Option Cli.Arg) (doc : List Svg.XmlEvent) :
    Foretells (Special.svgAny fl lib e cfg o layer doc) := by
  unfold Foretells Special.svgAny
  cases CheckedSvg.weight (o.intensity.getD 5) with
  | none => exact .inl ⟨rfl, fun _ => rfl⟩
  | some w =>
    simp only [Option.bind_eq_bind, Option.bind_some]
    split
    · cases Special.svgEvents _ _ _ _ w _ _ _ with
      | none => exact .inl ⟨rfl, fun _ => rfl⟩
      | some c =>
        simp only [Option.bind_some]
        by_cases ht : cfg.ticksPerSecond ≠ 0
        · rw [show cassert (cfg.ticksPerSecond ≠ 0) = some () from if_pos ht]
          exact .inr ⟨rfl, c.events, play_ends c.events⟩
        · rw [show cassert (cfg.ticksPerSecond ≠ 0) = none from if_neg ht]
          exact .inl ⟨rfl, fun _ => rfl⟩
    · exact .inl ⟨rfl, fun _ => rfl⟩

/-- C141: `image_raster` with any picture, options and configuration. -/
theorem C141_raster (fl : ℝ → ℝ) (cfg : Xy) (o : RasterNumbers) (img : Image) : Foretells (Special.rasterAny fl cfg o img) := by
  unfold Foretells Special.rasterAny
  cases Special.rasterEvents fl cfg o img with
  | none => exact .inl ⟨rfl, fun _ => rfl⟩
  | some c =>
    simp only [Option.bind_eq_bind, Option.bind_some]
    by_cases ht : cfg.ticksPerSecond ≠ 0
    · rw [show cassert (cfg.ticksPerSecond ≠ 0) = some () from if_pos ht]
      exact .inr ⟨rfl, c.events, play_ends c.events⟩
    · rw [show cassert (cfg.ticksPerSecond ≠ 0) = none from if_neg ht]
      exact .inl ⟨rfl, fun _ => rfl⟩

/-- C141: for `svg_path` one trial is enough for all intensities: if it ends normally, so does the run with any intensity and a device that is
ready, and the device is sent the same commands, but for the power. -/
theorem C141_any_intensity (fl : ℝ → ℝ) (lib : Lib) (e : Rounded.Env) (cfg : Xy) (o : SvgNumbers) (layer : Option Cli.Arg)
    (doc : List Svg.XmlEvent) (ho : 0 ≤ o.intensity.getD 5 ∧ o.intensity.getD 5 ≤ 100) (h : Special.svgAny fl lib e cfg o layer doc none = some none) :
    ∃ plan : List Event, ∀ k : Option ℤ, 0 ≤ k.getD 5 ∧ k.getD 5 ≤ 100 → ∀ p, Ready (plan.map (withPower (Program.weightOf (k.getD 5)))) p →
      ∃ p', Special.svgAny fl lib e cfg { o with intensity := k } layer doc (some p) = some (some p') ∧
        Sent (plan.map (withPower (Program.weightOf (k.getD 5)))) p p' := by
  have hw : ∀ x : ℤ, 0 ≤ x ∧ x ≤ 100 → CheckedSvg.weight x = some (Program.weightOf x) := fun x hx => by
    unfold CheckedSvg.weight toI32
    rw [if_pos (by omega)]
    rfl
  unfold Special.svgAny at h ⊢
  simp only [hw _ ho, Option.bind_eq_bind, Option.bind_some] at h
  split at h
  · rename_i path hd
    obtain ⟨c, hc, h⟩ := Option.bind_eq_some_iff.1 h
    obtain ⟨_, ht, -⟩ := Option.bind_eq_some_iff.1 h
    obtain ⟨⟨plan, hp⟩, ex⟩ := C139_svg_events fl { e with stepScale := fun i => (cfg.stepper i).stepsPerMillimeter }
      (Special.svgALimit fl cfg (o.aMax.map (.ofF64 fl))) (Special.vLimit fl cfg (o.vMax.map (.ofF64 fl))) path
      (Special.drawSpeed fl cfg (o.drawSpeed.map (.ofF64 fl))) (o.repeats.getD 1).toNat
    refine ⟨plan, fun k hk p R => ?_⟩
    obtain ⟨c', hc'⟩ := (ex _ (Program.weightOf (k.getD 5))).1 ⟨c, hc⟩
    simp only [hw _ hk, hd, Option.bind_eq_bind, Option.bind_some, hc', ht]
    obtain ⟨k1, k2⟩ := play_ends c'.events p
    rw [← hp _ c' hc'] at R ⊢
    obtain ⟨p', hp'⟩ := k2 R
    obtain ⟨q, hq, hs⟩ := k1 _ hp'
    cases hq
    exact ⟨p', hp', hs⟩
  · cases h

/-- C141: for `image_raster` one trial is enough for all intensities and all pictures with the same outline. -/
theorem C141_any_picture (fl : ℝ → ℝ) (cfg : Xy) (o : RasterNumbers) (img : Image) (h : Special.rasterAny fl cfg o img none = some none)
    (k : Option ℤ) (hk : 0 ≤ k.getD 5 ∧ k.getD 5 ≤ 100) (img' : Image) (O : SameOutline img img') (grey : ∀ x y, img'.pixel x y ≤ 255) :
    ∃ es, ∀ p, Ready es p → ∃ p', Special.rasterAny fl cfg { o with intensity := k } img' (some p) = some (some p') ∧ Sent es p p' := by
  have h' : Special.rasterAny fl cfg { o with intensity := k } img' none = some none := by
    unfold Special.rasterAny at h ⊢
    obtain ⟨c, hc, h⟩ := Option.bind_eq_some_iff.1 h
    obtain ⟨c', hc'⟩ := C140_raster_returns fl cfg o k img img' O grey hk c hc
    rw [hc']
    exact h
  rcases C141_raster fl cfg { o with intensity := k } img' with ⟨h0, -⟩ | ⟨-, es, H⟩
  · rw [h0] at h'
    cases h'
  · refine ⟨es, fun p R => ?_⟩
    obtain ⟨p', hp⟩ := (H p).2 R
    obtain ⟨q, e, s⟩ := (H p).1 _ hp
    cases e
    exact ⟨p', hp, s⟩

/-! ### Examples -/

/-- The sample picture: without a device the run ends normally, so it does with every device that is ready. -/
example : Special.rasterAny double (sampleConfig 1) ⟨none, none, none, none, none, none, none⟩ samplePicture none = some none ∧
    ∃ es, ∀ p, Ready es p → ∃ p', Special.rasterAny double (sampleConfig 1) ⟨none, none, none, none, none, none, none⟩ samplePicture (some p) =
      some (some p') := by
  obtain ⟨p, p', -, h, -⟩ := sample_burns
  rcases C141_raster double (sampleConfig 1) ⟨none, none, none, none, none, none, none⟩ samplePicture with ⟨-, h0⟩ | ⟨h0, es, k⟩
  · rw [h0 p] at h
    cases h
  · exact ⟨h0, es, fun p R => (k p).2 R⟩

/-- The shaded picture may be burnt at full intensity, since the sample picture is burnt. -/
example : ∃ es, ∀ p, Ready es p → ∃ p', Special.rasterAny double (sampleConfig 1) ⟨none, none, none, some 100, none, none, none⟩ shadedPicture
    (some p) = some (some p') ∧ Sent es p p' := by
  obtain ⟨p, p', -, h, -⟩ := sample_burns
  rcases C141_raster double (sampleConfig 1) ⟨none, none, none, none, none, none, none⟩ samplePicture with ⟨-, h0⟩ | ⟨h0, -⟩
  · rw [h0 p] at h
    cases h
  · exact C141_any_picture double (sampleConfig 1) ⟨none, none, none, none, none, none, none⟩ samplePicture h0 (some 100) (by decide) shadedPicture
      shaded_outline shaded_pixels

/-- The round document: it may be burnt with all intensities, since it is burnt with one. -/
example (pw : ℝ → ℝ → ℝ) (hpw : FloatPow pw) (lib : Lib) (hlib : FloatLib lib) (hang : FloatAngles lib)
    (hat : ∀ y x, double (lib.atan2 y x) = lib.atan2 y x) (e : Rounded.Env) (he : e.stepScale = fun _ => 80)
    (hf : Searches e) (hC : FloatCurves double pw lib.sin lib.cos e) :
    ∃ plan : List Event, ∀ p, Ready (plan.map (withPower 25)) p →
      ∃ p', Special.svgAny double lib e quickXy ⟨none, none, none, some 1, some 10⟩ none roundDoc.events (some p) = some (some p') ∧
        Sent (plan.map (withPower 25)) p p' := by
  obtain ⟨p, p', -, h, -⟩ := round_burns pw hpw lib hlib hang hat e he hf hC
  rcases C141_svg double lib e quickXy ⟨none, none, none, some 1, some 100⟩ none roundDoc.events with ⟨-, h0⟩ | ⟨h0, -⟩
  · rw [h0 p] at h
    cases h
  · obtain ⟨plan, hp⟩ := C141_any_intensity double lib e quickXy ⟨none, none, none, some 1, some 100⟩ none roundDoc.events (by decide) h0
    exact ⟨plan, hp (some 10) (by decide)⟩

end StepperPaths.Props
