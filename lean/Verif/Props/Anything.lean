import Verif.Proof.Keeps
import Verif.Props.Times
import Verif.Props.Special
import Verif.Props.Commands

/-!
C121: whatever the two programs are given, what they send ends with the laser off and the machine at rest, and the laser never
gets more power than was asked for.

No assumption is made about the document or the picture, the options, the configuration or the rounding.
-/

namespace StepperPaths.Props
open Context Control Spec Proof IntegerCurve Config Raster StepperPaths.Svg Rounded StepperPaths.Cli
open Draw (Seg)
open Program (weightOf)

/-- The events end with the laser off and the machine at rest. -/
def EndsAtRest (es : List Event) : Prop :=
  ∀ τ ≥ duration es, (∀ w0, weightAt w0 es τ = 0) ∧
    ∀ i, accAt i es τ = 0 ∧ velAt i es τ = 0 ∧ posAt i es τ = posAt i es (duration es)

/-- From the start the laser has at most the power `w`, and never a negative one, whatever it had before. -/
def PowerWithin (w : ℤ) (es : List Event) : Prop :=
  ∀ w0 τ, 0 ≤ weightAt w0 es τ ∧ weightAt w0 es τ ≤ w

/-! ### Proofs -/

theorem weight_of_events {ok : ℤ → Prop} {es : List Event} (h : ∀ e ∈ es, ∀ v, e.cmd = .weight v → ok v) (w0 : ℤ) (τ : ℕ) :
    weightAt w0 es τ = w0 ∨ ok (weightAt w0 es τ) := by
  have key : ∀ (es : List Event) (now : ℕ) (cur : ℤ), (∀ e ∈ es, ∀ v, e.cmd = .weight v → ok v) → (cur = w0 ∨ ok cur) →
      valueFrom weightAfter now cur es τ = w0 ∨ ok (valueFrom weightAfter now cur es τ) := by
    intro es
    induction es with
    | nil => intro now cur _ hc; exact hc
    | cons e es ih =>
      intro now cur h hc
      unfold valueFrom
      split
      · exact hc
      · refine ih _ _ (fun e' he' => h e' (.tail _ he')) ?_
        cases hcmd : e.cmd with
        | acc i a => exact hc
        | weight v => exact .inr (h e (.head _) v hcmd)
  exact key es 0 w0 h (.inl rfl)

theorem weight_of_start {ok : ℤ → Prop} {c : Ctx} (h : ∀ e ∈ c.events, ∀ v, e.cmd = .weight v → ok v) (hs : WasOff c) (w0 : ℤ) (τ : ℕ) :
    ok (weightAt w0 c.events τ) := by
  obtain ⟨-, rest, hr⟩ := hs
  have h0 : ok 0 := h ⟨0, .weight 0⟩ (by rw [hr]; exact .head _) 0 rfl
  have : weightAt w0 c.events τ = weightAt 0 c.events τ := by
    rw [hr]
    simp [weightAt, valueFrom, weightAfter]
  rw [this]
  rcases weight_of_events h 0 τ with h1 | h1
  · rw [h1]; exact h0
  · exact h1

/-- The last two calls of both programs. -/
theorem ends_at_rest {aMax vMax : Axis → ℤ} {c c1 c2 : Ctx} {x y : ℤ} (S : Sync aMax vMax c) (h1 : c.stepGotoSpeed x y 0 0 = some c1)
    (h2 : c1.readEvents = some c2) : EndsAtRest c2.events := by
  have S1 : Sync aMax vMax c1 := .step (op := .goto x y 0 0) S trivial h1
  have S2 : Sync aMax vMax c2 := .step (op := .events) S1 trivial h2
  have ht := Draw.ticks_of_sync S1
  generalize (c1.channels .x).ticks = t at ht
  obtain ⟨-, -, ht2, -, hv⟩ := C28_end_of_events aMax vMax c1 c2 S1.reach h2 t ht 0 0
  have past := fun w τ (h : t ≤ τ) => (C28_end_of_events aMax vMax c1 c2 S1.reach h2 t ht w τ).1 h
  have v0 : c1.velocity = (0, 0) := by
    have hn : Near c := S.inv.1
    obtain ⟨sx, sy, -, -, M, v1, v2, -, -⟩ := goto_spec hn h1
    simp only [Ctx.velocity, M.ch .x, M.ch .y, both, v1, v2]
  have hvel : ∀ i, velAt i c2.events t = 0 := by
    have := (C23_events_reproduce_state aMax vMax c2 S2.reach t ht2).2
    rw [hv, v0, Prod.mk.injEq] at this
    intro i
    cases i
    · exact this.1.symm
    · exact this.2.symm
  have hacc0 : ∀ i τ, t ≤ τ → accAt i c2.events τ = 0 := by
    intro i τ h
    cases i
    · exact (past 0 τ h).2.1
    · exact (past 0 τ h).2.2
  -- nothing changes after the last event
  have hacc : ∀ i τ, duration c2.events ≤ τ → accAt i c2.events τ = 0 := by
    intro i τ h
    rw [← hacc0 i (max t τ) (le_max_left _ _)]
    exact valueFrom_past _ _ _ _ _ _ (by omega) (by omega)
  have hdur : ∀ i, velAt i c2.events (duration c2.events) = 0 := by
    intro i
    rcases le_total t (duration c2.events) with h | h
    · obtain ⟨n, hn⟩ := Nat.exists_eq_add_of_le h
      rw [hn, (coast fun τ h _ => hacc0 i τ h).1, hvel]
    · obtain ⟨n, hn⟩ := Nat.exists_eq_add_of_le h
      have := (coast (i := i) (n := n) fun τ h _ => hacc i τ h).1
      rw [← hn, hvel] at this
      exact this.symm
  intro τ hτ
  refine ⟨fun w0 => ?_, fun i => ⟨hacc i τ hτ, ?_⟩⟩
  · rw [← (past w0 (max t τ) (le_max_left _ _)).1]
    exact valueFrom_past _ _ _ _ _ _ (by omega) (by omega)
  · obtain ⟨n, rfl⟩ := Nat.exists_eq_add_of_le hτ
    obtain ⟨k1, k2⟩ := coast (i := i) (n := n) fun τ h _ => hacc i τ h
    rw [k1, k2, hdur]
    exact ⟨rfl, by ring⟩

/-! ### `svg_path` -/

/-- C121: `svg_path`: what is computed, if anything. -/
theorem C121_svg_events (fl : ℝ → ℝ) (e : Rounded.Env) (aMax vMax : Axis → ℤ) (w : ℤ) (path : List Seg) (v : Special.Num) (n : ℕ)
    (c : Ctx) (h : Special.svgEvents fl e aMax vMax w path v n = some c) :
    Sync aMax vMax c ∧ EndsAtRest c.events ∧ ∀ w0 τ, weightAt w0 c.events τ = 0 ∨ weightAt w0 c.events τ = w := by
  have S0 : Sync aMax vMax ((Ctx.new aMax vMax).setWeight w) := .step (op := .setWeight w) .new trivial rfl
  refine ⟨(Sync.keeps aMax vMax).svg S0 h, ?_, ?_⟩
  · unfold Special.svgEvents at h
    simp only at h
    obtain ⟨c1, h1, h⟩ := Option.bind_eq_some_iff.1 h
    obtain ⟨c2, h2, h⟩ := Option.bind_eq_some_iff.1 h
    obtain ⟨_, -, h⟩ := Option.bind_eq_some_iff.1 h
    exact ends_at_rest ((Sync.keeps aMax vMax).times S0 h1) (Checked.stepGotoSpeed_le _ _ _ _ _ _ h2) h
  · have B : Beam (fun v => v = 0 ∨ v = w) w c :=
      (Beam.keeps (.inl rfl) (.inr rfl)).svg ⟨rfl, rfl, fun e he => by cases he⟩ h
    exact weight_of_start B.events (Off.keeps.svg (Off.new _ _ _) h)

/-! ### `image_raster` -/

theorem raster_sync {fl : ℝ → ℝ} {cfg : Xy} {o : RasterNumbers} {img : Image} {c : Ctx} (h : Special.rasterEvents fl cfg o img = some c) :
    ∃ aMax vMax, Sync aMax vMax c := by
  unfold Special.rasterEvents at h
  simp only at h
  obtain ⟨_, -, h⟩ := Option.bind_eq_some_iff.1 h
  exact ⟨_, _, (Sync.keepsScan _ _ fun _ => True).raster (fun _ _ => trivial) trivial
    (.step (op := .setWeight _) .new trivial rfl) h⟩

/-- C121: `image_raster`: what is computed, if anything. -/
theorem C121_raster_events (fl : ℝ → ℝ) (cfg : Xy) (o : RasterNumbers) (img : Image) (hi : ∀ x y, img.pixel x y ≤ 255) (c : Ctx)
    (hw : 0 ≤ weightOf (o.intensity.getD 5)) (h : Special.rasterEvents fl cfg o img = some c) :
    (∃ aMax vMax, Sync aMax vMax c) ∧ EndsAtRest c.events ∧ PowerWithin (weightOf (o.intensity.getD 5)) c.events := by
  refine ⟨raster_sync h, ?_⟩
  unfold Special.rasterEvents at h
  simp only at h
  obtain ⟨_, -, h⟩ := Option.bind_eq_some_iff.1 h
  have hpw : (Special.params fl cfg (Special.ask fl o img.width img.height) img.width img.height).weight =
    weightOf (o.intensity.getD 5) := rfl
  generalize Special.params fl cfg (Special.ask fl o img.width img.height) img.width img.height = p at h hpw
  generalize Special.rasterALimit fl cfg (o.aMax.map (.ofF64 fl)) = aMax at h
  generalize Special.vLimit fl cfg (o.vMax.map (.ofF64 fl)) = vMax at h
  have S0 : Sync aMax vMax ((Ctx.new aMax vMax).setWeight p.weight) := .step (op := .setWeight p.weight) .new trivial rfl
  refine ⟨?_, ?_⟩
  · replace h := Checked.raster_le _ _ _ _ h
    unfold Raster.raster at h
    simp only at h
    obtain ⟨_, e0, h⟩ := Option.bind_eq_some_iff.1 h
    unfold checks at e0
    obtain ⟨_, k1, e0⟩ := Option.bind_eq_some_iff.1 e0
    obtain ⟨_, k2, -⟩ := Option.bind_eq_some_iff.1 e0
    obtain ⟨rfl, -⟩ := mulU32_eq k1
    obtain ⟨-, k2⟩ := mulU32_eq k2
    obtain ⟨⟨b, c1⟩, e1, h⟩ := Option.bind_eq_some_iff.1 h
    obtain ⟨c2, e2, h⟩ := Option.bind_eq_some_iff.1 h
    exact ends_at_rest ((Sync.keepsScan aMax vMax fun _ => True).rows (by omega) (fun _ _ => trivial) trivial
      (s := (true, (Ctx.new aMax vMax).setWeight p.weight)) S0 e1) e2 h
  · rw [← hpw] at hw ⊢
    have B : Beam (fun v => 0 ≤ v ∧ v ≤ p.weight) p.weight c := by
      refine (Beam.keepsScan ⟨le_refl _, hw⟩).raster (fun x y => ?_) ⟨le_refl _, hw⟩ ⟨rfl, rfl, fun e he => by cases he⟩ h
      have := hi x y
      unfold pixelWeight
      have h0 : (0 : ℤ) ≤ (255 - img.pixel x y : ℤ) := by omega
      have h1 : 0 ≤ (255 - img.pixel x y : ℤ) * p.weight := mul_nonneg h0 hw
      have h2 : (255 - img.pixel x y : ℤ) * p.weight ≤ 255 * p.weight := mul_le_mul_of_nonneg_right (by omega) hw
      rw [Int.tdiv_eq_ediv_of_nonneg h1]
      omega
    exact weight_of_start B.events (Off.keepsScan.raster (fun _ _ => trivial) trivial (Off.new _ _ _) h)

/-! ### The programs -/

theorem weightOf_range {k : ℤ} (h : 0 ≤ k ∧ k ≤ 100) : 0 ≤ weightOf k ∧ weightOf k ≤ 254 := by
  unfold weightOf
  rw [Int.tdiv_eq_ediv_of_nonneg (by omega)]
  omega

/-- C121: if `svg_path` succeeds with a device, the device has accepted events that end at rest, with the power of the intensity. -/
theorem C121_svg (fl : ℝ → ℝ) (lib : Lib) (e : Rounded.Env) (cfg : Xy) (o : SvgNumbers) (layer : Option Arg) (doc : List XmlEvent)
    (p p' : Port) (h : Special.svgAny fl lib e cfg o layer doc (some p) = some (some p')) :
    ∃ es, EndsAtRest es ∧ (∀ w0 τ, weightAt w0 es τ = 0 ∨ weightAt w0 es τ = weightOf (o.intensity.getD 5)) ∧ Sent es p p' := by
  unfold Special.svgAny at h
  obtain ⟨w, hw, h⟩ := Option.bind_eq_some_iff.1 h
  obtain rfl : w = weightOf (o.intensity.getD 5) := by
    obtain ⟨a, ha, hw⟩ := Option.bind_eq_some_iff.1 hw
    cases hw
    rw [(toI32_eq ha).1]
    rfl
  split at h
  · obtain ⟨c, hc, h⟩ := Option.bind_eq_some_iff.1 h
    obtain ⟨_, -, h⟩ := Option.bind_eq_some_iff.1 h
    simp only at h
    obtain ⟨⟨r, q⟩, hr, h⟩ := Option.bind_eq_some_iff.1 h
    obtain ⟨-, h2, h3⟩ := C121_svg_events _ _ _ _ _ _ _ _ _ hc
    cases r with
    | error err => cases h
    | ok u =>
      cases h
      exact ⟨c.events, h2, h3, C35_accepted _ _ _ hr⟩
  · cases h

/-- C121: the same for `image_raster`. -/
theorem C121_raster (fl : ℝ → ℝ) (cfg : Xy) (o : RasterNumbers) (img : Image) (hi : ∀ x y, img.pixel x y ≤ 255)
    (hw : 0 ≤ weightOf (o.intensity.getD 5)) (p p' : Port) (h : Special.rasterAny fl cfg o img (some p) = some (some p')) :
    ∃ es, EndsAtRest es ∧ PowerWithin (weightOf (o.intensity.getD 5)) es ∧ Sent es p p' := by
  unfold Special.rasterAny at h
  obtain ⟨c, hc, h⟩ := Option.bind_eq_some_iff.1 h
  obtain ⟨_, -, h⟩ := Option.bind_eq_some_iff.1 h
  simp only at h
  obtain ⟨⟨r, q⟩, hr, h⟩ := Option.bind_eq_some_iff.1 h
  obtain ⟨-, h2, h3⟩ := C121_raster_events fl cfg o img hi c hw hc
  cases r with
  | error err => cases h
  | ok u =>
    cases h
    exact ⟨c.events, h2, h3, C35_accepted _ _ _ hr⟩

/-! ### Any command line -/

theorem intensity_range {m : Matches} {o : Option ℤ} {bad range : Message}
    (h : intOpt m "intensity" bad (fun n => 0 ≤ n ∧ n ≤ 100) range = .ok o) : 0 ≤ o.getD 5 ∧ o.getD 5 ≤ 100 := by
  unfold intOpt at h
  split at h
  · cases h; decide
  · split at h
    · split at h
      · rename_i hr
        cases h
        simpa using hr
      · cases h
    · cases h

theorem bind_ok {α β ε : Type} {a : Except ε α} {f : α → Except ε β} {b : β} (h : a >>= f = .ok b) : ∃ x, a = .ok x ∧ f x = .ok b := by
  cases a with
  | error e => cases h
  | ok x => exact ⟨x, rfl, h⟩

theorem svgNumbers_range {m : Matches} {o : SvgNumbers} (h : svgNumbers m = .ok o) : 0 ≤ o.intensity.getD 5 ∧ o.intensity.getD 5 ≤ 100 := by
  unfold svgNumbers at h
  obtain ⟨_, -, h⟩ := bind_ok h
  obtain ⟨_, -, h⟩ := bind_ok h
  obtain ⟨_, -, h⟩ := bind_ok h
  obtain ⟨_, -, h⟩ := bind_ok h
  obtain ⟨k, hk, h⟩ := bind_ok h
  cases h
  exact intensity_range hk

theorem rasterNumbers_range {m : Matches} {o : RasterNumbers} (h : rasterNumbers m = .ok o) :
    0 ≤ o.intensity.getD 5 ∧ o.intensity.getD 5 ≤ 100 := by
  unfold rasterNumbers at h
  obtain ⟨_, -, h⟩ := bind_ok h
  obtain ⟨_, -, h⟩ := bind_ok h
  obtain ⟨_, -, h⟩ := bind_ok h
  obtain ⟨k, hk, h⟩ := bind_ok h
  obtain ⟨_, -, h⟩ := bind_ok h
  obtain ⟨_, -, h⟩ := bind_ok h
  obtain ⟨_, -, h⟩ := bind_ok h
  cases h
  exact intensity_range hk

/-- A run that ends normally with a device. -/
theorem svgCommand_done {run : Xy → SvgNumbers → Option Arg → List XmlEvent → Option Port → Option (Option Port)}
    {w : World (List XmlEvent)} {args : List Arg} {p' : Port} (h : (svgCommand run w args).out = .done (some p'))
    (hn : ∀ cfg o layer doc q, run cfg o layer doc none ≠ some (some q)) :
    ∃ dev p cfg o layer doc, .device dev ∈ (svgCommand run w args).acts ∧ w.device dev = some p ∧ (∃ name, w.config name = some cfg) ∧
      (0 ≤ o.intensity.getD 5 ∧ o.intensity.getD 5 ≤ 100) ∧ run cfg o layer doc (some p) = some (some p') := by
  unfold svgCommand at h ⊢
  cases hg : getopts svgOpts args with
  | none => simp [hg] at h
  | some m =>
    simp only [hg] at h ⊢
    by_cases hh : m.present "h" = true
    · simp [hh] at h
    rw [if_neg hh] at h ⊢
    cases hf : m.free with
    | nil => simp [hf] at h
    | cons file rest =>
      cases hc : m.str "config" with
      | none => simp [hf, hc] at h
      | some name =>
        simp only [hf, hc] at h ⊢
        cases hcfg : w.config name with
        | none => simp [hcfg] at h
        | some cfg =>
          simp only [hcfg] at h ⊢
          by_cases ht : 2 * cfg.ticksPerSecond > 4294967295
          · simp [ht] at h
          rw [if_neg ht] at h ⊢
          cases ho : svgNumbers m with
          | error msg => simp [ho] at h
          | ok o =>
            simp only [ho] at h ⊢
            cases hd : m.str "device" with
            | none =>
              simp only [hd, Option.map_none, Option.bind_none] at h
              cases hdoc : w.picture file with
              | none => simp [hdoc] at h
              | some doc =>
                simp only [hdoc] at h
                cases hr : run cfg o (m.str "layer") doc none with
                | none => simp [hr] at h
                | some q =>
                  simp only [hr] at h
                  injection h with h
                  subst h
                  exact absurd hr (hn _ _ _ _ _)
            | some dev =>
              simp only [hd, Option.map_some] at h ⊢
              cases hp : w.device dev with
              | none => simp [hp] at h
              | some p =>
                simp only [hp, Option.bind_some, id] at h ⊢
                cases hdoc : w.picture file with
                | none => simp [hdoc] at h
                | some doc =>
                  simp only [hdoc] at h ⊢
                  cases hr : run cfg o (m.str "layer") doc (some p) with
                  | none => simp [hr] at h
                  | some q =>
                    simp only [hr] at h ⊢
                    injection h with h
                    subst h
                    exact ⟨dev, p, cfg, o, m.str "layer", doc, by simp, hp, ⟨name, hcfg⟩, svgNumbers_range ho, hr⟩

theorem rasterCommand_done {run : Xy → RasterNumbers → Image → Option Port → Option (Option Port)}
    {w : World (Option Image)} {args : List Arg} {p' : Port} (h : (rasterCommand run w args).out = .done (some p'))
    (hn : ∀ cfg o img q, run cfg o img none ≠ some (some q)) :
    ∃ dev p cfg o file img, .device dev ∈ (rasterCommand run w args).acts ∧ w.device dev = some p ∧ w.picture file = some (some img) ∧
      (∃ name, w.config name = some cfg) ∧ (0 ≤ o.intensity.getD 5 ∧ o.intensity.getD 5 ≤ 100) ∧ run cfg o img (some p) = some (some p') := by
  unfold rasterCommand at h ⊢
  cases hg : getopts rasterOpts args with
  | none => simp [hg] at h
  | some m =>
    simp only [hg] at h ⊢
    by_cases hh : m.present "h" = true
    · simp [hh] at h
    rw [if_neg hh] at h ⊢
    cases hf : m.free with
    | nil => simp [hf] at h
    | cons file rest =>
      cases hc : m.str "config" with
      | none => simp [hf, hc] at h
      | some name =>
        simp only [hf, hc] at h ⊢
        cases hcfg : w.config name with
        | none => simp [hcfg] at h
        | some cfg =>
          simp only [hcfg] at h ⊢
          by_cases ht : 2 * cfg.ticksPerSecond > 4294967295
          · simp [ht] at h
          rw [if_neg ht] at h ⊢
          cases ho : rasterNumbers m with
          | error msg => simp [ho] at h
          | ok o =>
            simp only [ho] at h ⊢
            cases hi : w.picture file with
            | none => simp [hi] at h
            | some img =>
              cases img with
              | none => simp [hi] at h
              | some img =>
                simp only [hi] at h ⊢
                cases hd : m.str "device" with
                | none =>
                  simp only [hd, Option.map_none, Option.bind_none] at h
                  cases hr : run cfg o img none with
                  | none => simp [hr] at h
                  | some q =>
                    simp only [hr] at h
                    injection h with h
                    subst h
                    exact absurd hr (hn _ _ _ _)
                | some dev =>
                  simp only [hd, Option.map_some] at h ⊢
                  cases hp : w.device dev with
                  | none => simp [hp] at h
                  | some p =>
                    simp only [hp, Option.bind_some, id] at h ⊢
                    cases hr : run cfg o img (some p) with
                    | none => simp [hr] at h
                    | some q =>
                      simp only [hr] at h ⊢
                      injection h with h
                      subst h
                      exact ⟨dev, p, cfg, o, file, img, by simp, hp, hi, ⟨name, hcfg⟩, rasterNumbers_range ho, hr⟩

/-- Without a device nothing is sent. -/
theorem svgAny_none {fl : ℝ → ℝ} {lib : Lib} {e : Rounded.Env} (cfg : Xy) (o : SvgNumbers) (layer : Option Arg) (doc : List XmlEvent) (q : Port) :
    Special.svgAny fl lib e cfg o layer doc none ≠ some (some q) := by
  intro hq
  unfold Special.svgAny at hq
  obtain ⟨w, -, hq⟩ := Option.bind_eq_some_iff.1 hq
  split at hq
  · obtain ⟨_, -, hq⟩ := Option.bind_eq_some_iff.1 hq
    obtain ⟨_, -, hq⟩ := Option.bind_eq_some_iff.1 hq
    cases hq
  · cases hq

theorem rasterAny_none {fl : ℝ → ℝ} (cfg : Xy) (o : RasterNumbers) (img : Image) (q : Port) :
    Special.rasterAny fl cfg o img none ≠ some (some q) := by
  intro hq
  unfold Special.rasterAny at hq
  obtain ⟨_, -, hq⟩ := Option.bind_eq_some_iff.1 hq
  obtain ⟨_, -, hq⟩ := Option.bind_eq_some_iff.1 hq
  cases hq

/-- C121: `svg_path` with any arguments and any files: if it ends normally after it has used a device, the device has accepted
events that end with the laser off and the machine at rest; the power is always 0 or one value of at most 254. -/
theorem C121_svg_command (fl : ℝ → ℝ) (lib : Lib) (e : Rounded.Env) (w : World (List XmlEvent)) (args : List Arg) (p' : Port)
    (h : (svgCommand (Special.svgAny fl lib e) w args).out = .done (some p')) :
    ∃ dev p es, .device dev ∈ (svgCommand (Special.svgAny fl lib e) w args).acts ∧ w.device dev = some p ∧ Sent es p p' ∧
      EndsAtRest es ∧ PowerWithin 254 es ∧ ∃ k, ∀ w0 τ, weightAt w0 es τ = 0 ∨ weightAt w0 es τ = k := by
  obtain ⟨dev, p, cfg, o, layer, doc, h1, h2, -, h3, h4⟩ := svgCommand_done h svgAny_none
  obtain ⟨es, k1, k2, k3⟩ := C121_svg fl lib e cfg o layer doc p p' h4
  refine ⟨dev, p, es, h1, h2, k3, k1, fun w0 τ => ?_, _, k2⟩
  have := weightOf_range h3
  rcases k2 w0 τ with h | h <;> rw [h] <;> omega

/-- C121: the same for `image_raster`, where the power depends on the pixels, and pixels are bytes. -/
theorem C121_raster_command (fl : ℝ → ℝ) (w : World (Option Image)) (hi : ∀ file img, w.picture file = some (some img) → ∀ x y, img.pixel x y ≤ 255)
    (args : List Arg) (p' : Port) (h : (rasterCommand (Special.rasterAny fl) w args).out = .done (some p')) :
    ∃ dev p es, .device dev ∈ (rasterCommand (Special.rasterAny fl) w args).acts ∧ w.device dev = some p ∧ Sent es p p' ∧
      EndsAtRest es ∧ PowerWithin 254 es := by
  obtain ⟨dev, p, cfg, o, file, img, h1, h2, h5, -, h3, h4⟩ := rasterCommand_done h rasterAny_none
  have hr := weightOf_range h3
  obtain ⟨es, k1, k2, k3⟩ := C121_raster fl cfg o img (hi file img h5) hr.1 p p' h4
  exact ⟨dev, p, es, h1, h2, k3, k1, fun w0 τ => ⟨(k2 w0 τ).1, (k2 w0 τ).2.trans hr.2⟩⟩

/-! ### Times, once more -/

/-- C118: with a clock that is not in the last half of its range and fewer than 2^30 events, the times of `svg_path` do not overflow,
whatever it is given. -/
theorem C118_svg_fits (fl : ℝ → ℝ) (lib : Lib) (e : Rounded.Env) (cfg : Xy) (o : SvgNumbers) (layer : Option Arg)
    (doc : List XmlEvent) (port : Option Port) (hp : ∀ p ∈ port, ∀ t, Tells p t → t ≤ 2 ^ 62)
    (hl : ∀ w path c, parseDocumentF fl lib (Program.keepOf layer) .identity doc = some (.ok path) →
        Special.svgEvents fl { e with stepScale := fun i => (cfg.stepper i).stepsPerMillimeter }
          (Special.svgALimit fl cfg (o.aMax.map (.ofF64 fl))) (Special.vLimit fl cfg (o.vMax.map (.ofF64 fl))) w path
          (Special.drawSpeed fl cfg (o.drawSpeed.map (.ofF64 fl))) (o.repeats.getD 1).toNat = some c → c.events.length < 2 ^ 30) :
    Checked.svgTimed fl lib e cfg o layer doc port = Special.svgAny fl lib e cfg o layer doc port := by
  refine (C118_svg fl lib e cfg o layer doc port).2 fun p hpp t ht w path c hd hc => ?_
  have h1 := hp p hpp t ht
  have h2 := (C118_ticks _ _ c (C121_svg_events _ _ _ _ _ _ _ _ _ hc).1.reach).2.1
  have h3 : (2 ^ 32 - 1) * c.events.length ≤ (2 ^ 32 - 1) * (2 ^ 30 - 1) := Nat.mul_le_mul_left _ (by have := hl w path c hd hc; omega)
  have h4 : ticksOf c.events ≤ (2 ^ 32 - 1) * (2 ^ 30 - 1) := h2.trans h3
  simp only [i64Max]
  norm_num at h1 h4 ⊢
  omega

/-- C118: the same for `image_raster`. -/
theorem C118_raster_fits (fl : ℝ → ℝ) (cfg : Xy) (o : RasterNumbers) (img : Image) (port : Option Port)
    (hp : ∀ p ∈ port, ∀ t, Tells p t → t ≤ 2 ^ 62)
    (hl : ∀ c, Special.rasterEvents fl cfg o img = some c → c.events.length < 2 ^ 30) :
    Checked.rasterTimed fl cfg o img port = Special.rasterAny fl cfg o img port := by
  refine (C118_raster fl cfg o img port).2 fun p hpp t ht c hc => ?_
  obtain ⟨aMax, vMax, S⟩ := raster_sync hc
  have h1 := hp p hpp t ht
  have h2 := (C118_ticks _ _ c S.reach).2.1
  have h3 : (2 ^ 32 - 1) * c.events.length ≤ (2 ^ 32 - 1) * (2 ^ 30 - 1) := Nat.mul_le_mul_left _ (by have := hl c hc; omega)
  have h4 : ticksOf c.events ≤ (2 ^ 32 - 1) * (2 ^ 30 - 1) := h2.trans h3
  simp only [i64Max]
  norm_num at h1 h4 ⊢
  omega

/-! ### Examples -/

/-- The sample picture without options: the power is at most 12. -/
theorem sample_burns : ∃ p p' es, Special.rasterAny double (sampleConfig 1) ⟨none, none, none, none, none, none, none⟩ samplePicture (some p) =
    some (some p') ∧ Sent es p p' ∧ EndsAtRest es ∧ PowerWithin 12 es := by
  obtain ⟨es, lines, -, -, -, b8⟩ := C107_program double C90_double (sampleConfig 1) ⟨none, none, none, none, none, none, none⟩
    samplePicture 20 10 (1 / 5) 20 sample_scannable (fun i => by rw [sample_limitsF.2]; norm_num [sampleV])
  obtain ⟨r0, t0, full, d, g1, g2, g3, g4, g5, g6⟩ := ready_quick es
  obtain ⟨p', hp⟩ := b8 _ r0 t0 full d g1 g2 g3 g4 g5 g6
  rw [← rasterChecked_port (o := ⟨none, none, none, none, none, none, none⟩) (opts := ⟨none, none, none, none, none, none, none⟩) rfl
      (by decide) (by norm_num [sampleConfig]),
    ← C117_finite_raster double (sampleConfig 1) ⟨none, none, none, none, none, none, none⟩
      ⟨none, none, none, none, none, none, none⟩ rfl samplePicture (by decide) (by decide) _ rfl] at hp
  · obtain ⟨es, h1, h2, h3⟩ := C121_raster double (sampleConfig 1) _ samplePicture (fun x y => by
      unfold samplePicture
      simp only
      repeat' split
      all_goals omega) (by decide) _ _ hp
    exact ⟨_, p', es, hp, h3, h1, h2⟩
  · have h1 := C90_double.int (20 * 1966080) (by norm_num)
    have h2 := C90_double.int (4 * (20 * 1966080)) (by norm_num)
    simp only [requestF, Option.getD_none, sampleConfig, samplePicture]
    norm_num at h1 h2 ⊢
    rw [h1]
    norm_num
    rw [h2]
    norm_num
  · have h1 := fl_ge C90_double (y := 1 / 5) (by rw [abs_of_pos (by norm_num)]; norm_num)
    have h2 := fl_ge C90_double (y := 2 * double (1 / 5)) (by
      rw [abs_mul]
      norm_num at h1 ⊢
      linarith)
    simp only [requestF, Option.getD_none, samplePicture]
    intro h
    push_cast at h
    rw [h, abs_mul] at h2
    norm_num at h1 h2
    linarith

example : ∃ p p', Special.rasterAny double (sampleConfig 1) ⟨none, none, none, none, none, none, none⟩ samplePicture (some p) =
    some (some p') ∧ ∃ es, Sent es p p' ∧ EndsAtRest es ∧ PowerWithin 12 es :=
  let ⟨p, p', es, h⟩ := sample_burns
  ⟨p, p', h.1, es, h.2⟩

/-- The document of C103 with full power. -/
theorem round_burns (pw : ℝ → ℝ → ℝ) (hpw : FloatPow pw) (lib : Lib) (hlib : FloatLib lib) (hang : FloatAngles lib)
    (hat : ∀ y x, double (lib.atan2 y x) = lib.atan2 y x) (e : Rounded.Env) (he : e.stepScale = fun _ => 80)
    (hf : Searches e) (hC : FloatCurves double pw lib.sin lib.cos e) :
    ∃ p p' es, Special.svgAny double lib e quickXy ⟨none, none, none, some 1, some 100⟩ none roundDoc.events (some p) = some (some p') ∧
      Sent es p p' ∧ EndsAtRest es ∧ ∀ w0 τ, weightAt w0 es τ = 0 ∨ weightAt w0 es τ = 254 := by
  obtain ⟨p, p', hp⟩ := round_runs pw hpw lib hlib hang hat e he hf hC
  rw [← svgChecked_port (o := ⟨none, none, none, some 1, some 100⟩) (opts := ⟨none, none, none, some 1, some 100⟩) rfl (by decide)
      (by decide) (by decide),
    ← C117_finite_svg double lib e quickXy ⟨none, none, none, some 1, some 100⟩ ⟨none, none, none, some 1, some 100⟩ rfl] at hp
  · obtain ⟨es, h1, h2, h3⟩ := C121_svg double lib e quickXy _ none _ p p' hp
    exact ⟨p, p', es, hp, h3, h1, h2⟩
  · have := fl_ge C90_double (y := 20 / 800) (by rw [abs_of_pos (by norm_num)]; norm_num)
    simp only [drawSpeedF, Option.getD_none, quickXy]
    intro h
    norm_num at this h
    rw [h] at this
    norm_num at this

example (pw : ℝ → ℝ → ℝ) (hpw : FloatPow pw) (lib : Lib) (hlib : FloatLib lib) (hang : FloatAngles lib)
    (hat : ∀ y x, double (lib.atan2 y x) = lib.atan2 y x) (e : Rounded.Env) (he : e.stepScale = fun _ => 80)
    (hf : Searches e) (hC : FloatCurves double pw lib.sin lib.cos e) :
    ∃ p p', Special.svgAny double lib e quickXy ⟨none, none, none, some 1, some 100⟩ none roundDoc.events (some p) = some (some p') ∧
      ∃ es, Sent es p p' ∧ EndsAtRest es ∧ ∀ w0 τ, weightAt w0 es τ = 0 ∨ weightAt w0 es τ = 254 :=
  let ⟨p, p', es, h⟩ := round_burns pw hpw lib hlib hang hat e he hf hC
  ⟨p, p', h.1, es, h.2⟩

end StepperPaths.Props
