import Verif.Proof.Commands
import Verif.Props.CheckedSvg
import Verif.Props.CheckedRaster
import Verif.Props.ConfigText

/-! # C114: from the command line and the text of the configuration to what is burnt -/

namespace StepperPaths.Props
open Coords Context IntegerCurve Spec Program Config Control Raster StepperPaths.Svg Spec.Svg Rounded
open Draw (Machine)
open StepperPaths.Cli Spec.Cli StepperPaths.ConfigText Spec.Json

/-- What is asked of the machine, the options and the document, as in C104 and C113. -/
structure Drawable (fl : ℝ → ℝ) (lib : Lib) (e : Rounded.Env) (cfg : Xy) (o : Options) (layer : Option (List Char))
    (f : Forest) (l : List Drawing) (v S M D ε κ : ℝ) (N m n : ℕ) (ρ δ : Axis → ℝ) : Prop where
  scale : e.stepScale = fun i => (cfg.stepper i).stepsPerMillimeter
  machine : Machine (svgALimitF fl cfg o.aMax) (vLimitF fl cfg o.vMax)
  slow : ∀ i, vLimitF fl cfg o.vMax i ≤ 2 ^ 24
  speed : drawSpeedF fl cfg o.drawSpeed = v
  limits : CurveLimits e (svgALimitF fl cfg o.aMax) (vLimitF fl cfg o.vMax) v S M D ε κ N m
  small : ∀ i, M * e.stepScale i ≤ 2 ^ 26
  margin : ∀ i, 387 / 100 * S + 1 / 2 + 3 * (N * (1 / 1000000 + 1 / 10 ^ 12) * e.stepScale i) ≤ ρ i
  passes : o.repeats.getD 1 = n ∧ 1 ≤ n
  power : 1 ≤ o.intensity.getD 5 ∧ o.intensity.getD 5 ≤ 100
  ticks : cfg.ticksPerSecond ≠ 0 ∧ cfg.ticksPerSecond < 2 ^ 31
  even : f.Even fl lib (keepOf layer)
  nonempty : l ≠ []
  valid : ∀ d ∈ l, d.Valid
  paths : f.paths (keepOf layer) .identity = some (l.map fun d => (d.tr, d.text))
  sizes : ∃ z h q B, f.sizes (keepOf layer) ⟨.identity, 0⟩ = some z ∧
    List.Forall₂ (fun d s => Readable δ d s ∨ ArcsReadable h q B δ d s) l z
  fits : ∀ p0 rest, parseDocumentF fl lib (keepOf layer) .identity f.events = some (.ok (.goTo p0 :: rest)) →
    rest.length < N ∧ ∀ P : Axis → ℤ, ((∀ i, P i = 0) ∨ 2 ≤ n ∧ AtEnd e.stepScale ρ p0 rest P) →
      FloatFits fl e.stepScale M (m * v) D ε κ (v / 100) ρ p0 rest P

/-- A machine that obeys the events burns the picture in `n` passes, within its limits and with the given distances, and
ends at the origin, with the laser off since the last pass. -/
def Drawn (scale : Axis → ℝ) (aMax vMax : Axis → ℤ) (power : ℤ) (n : ℕ) (l : List Drawing) (δ1 δ2 δ3 : Axis → ℝ)
    (es : List Event) : Prop :=
  ∃ (t : ℕ → ℕ) (T : ℕ), t 0 = 0 ∧ t n < T ∧
    (∀ k < n, Burnt scale power aMax vMax es (t k) (t (k + 1)) (picture l) δ1 δ2 δ3) ∧
    (∀ w0 τ, t n ≤ τ → weightAt w0 es τ = 0) ∧
    (∀ i τ, t n ≤ τ → |accAt i es τ| ≤ aMax i ∧ |velAt i es (τ + 1)| ≤ vMax i) ∧
    ∀ i τ, T ≤ τ → velAt i es τ = 0 ∧ posAt i es τ = 0

/-- The device has been asked for its time, and has then accepted exactly these events, at times counted from there. -/
def Sent (es : List Event) (port port' : Port) : Prop :=
  ∃ (r0 : List Char) (t0 : ℤ) (rs : List Round), readInt r0 = some t0 ∧
    (accepted rs).map decodeLine = (Spec.absolute (t0 + 128) es).map some ∧
    port'.log = port.log ++ ((['T'], r0) :: rs).flatMap Round.acts

/-- The device will tell its time, and will then accept as many lines, each after any number of refusals. -/
def Ready (es : List Event) (port : Port) : Prop :=
  ∃ (r0 : List Char) (t0 : ℤ) (full : List ℕ) (d : ℕ), full.length = es.length ∧ '\n' ∉ r0 ∧ readInt r0 = some t0 ∧
    (i64Min ≤ t0 ∧ t0 ≤ i64Max) ∧ Delivers port.input port.reads (r0 ++ '\n' :: full.flatMap answers) d ∧
    ∀ n, port.writeOk n = true

theorem ready_quick (es : List Event) :
    Ready es (quickPort (String.ofList ("17\n".toList ++ (List.replicate es.length 0).flatMap answers))) := by
  refine ⟨['1', '7'], 17, List.replicate es.length 0, _, by simp, by decide, by decide, by decide, delivers_quick _ _ 0 ?_, fun _ => rfl⟩
  intro i hi
  simp only [quickPort, String.toList_ofList, Nat.zero_add]
  have : "17\n".toList ++ (List.replicate es.length 0).flatMap answers =
      ['1', '7'] ++ '\n' :: (List.replicate es.length 0).flatMap answers := rfl
  rw [this, List.getElem?_eq_getElem hi]

/-- C114: `svg_path` with a command line as documented, a file that says a configuration, and a document and a machine as in
C104, with rounded `f64` and checked integers.  There are events that burn the picture; the program
sends these to the device and no others, if the device is ready it ends normally, and without a device it ends normally too. -/
theorem C114_svg (fl : ℝ → ℝ) (R : FloatRounding fl) (odd : ∀ x, fl (-x) = -fl x) (pw : ℝ → ℝ → ℝ) (hpw : FloatPow pw)
    (lib : Lib) (hlib : FloatLib lib) (hang : FloatAngles lib) (e : Rounded.Env) (hs : Searches e)
    (he : FloatCurves fl pw lib.sin lib.cos e) (conv : List Char → Option ℝ) (files : List Char → Option (List Char))
    (documents : List Char → Option (List XmlEvent))
    (line : Line) (hl : line.Valid svgKeys) (ho : line.Once) (hh : line.helps = 0)
    (file : Cli.Arg) (hf : line.files.head? = some file) (name : Cli.Arg) (hc : line.value "config" = some name)
    (cfg : Full) (hcfg : SaysConfig conv files name cfg)
    (vMax aMax speed : Option ℚ) (rep p : Option ℤ) (h1 : Float (line.value "v-max") vMax)
    (h2 : Float (line.value "a-max") aMax) (h3 : Float (line.value "draw-speed") speed)
    (h4 : Integer (line.value "repeat") rep) (h5 : Integer (line.value "intensity") p)
    (hrep : ∀ k ∈ rep, 1 ≤ k) (hp : ∀ k ∈ p, 0 ≤ k ∧ k ≤ 100)
    (o : Options) (hopt : o = ⟨vMax.map fun x : ℚ => fl x, aMax.map fun x : ℚ => fl x, speed.map fun x : ℚ => fl x, rep, p⟩)
    (f : Forest) (hdoc : documents file = some f.events) (l : List Drawing) (v S M D ε κ : ℝ) (N m n : ℕ) (ρ δ : Axis → ℝ)
    (H : Drawable fl lib e cfg.xy o (line.value "layer") f l v S M D ε κ N m n ρ δ)
    (θ : Axis → ℝ) (hθ : ∀ i, 101 / 200 + δ i * e.stepScale i ≤ θ i) :
    ∃ es, Drawn e.stepScale (svgALimitF fl cfg.xy o.aMax) (vLimitF fl cfg.xy o.vMax) (weightOf (o.intensity.getD 5)) n l
        (fun i => 2 * θ i + e.stepScale i / 1000000)
        (fun i => 386 / 100 * S + θ i + (N * (1 / 1000000 + 1 / 10 ^ 12) + N * D) * e.stepScale i)
        (fun i => 386 / 100 * S + θ i + (N * (1 / 1000000 + 1 / 10 ^ 12) + N * D + 13 / 10 * v) * e.stepScale i) es ∧
      ∀ devices : List Char → Option Port, let w : World (List XmlEvent) := ⟨fileConfig conv files, documents, devices⟩
        (∀ dev port, line.value "device" = some dev → devices dev = some port →
          (∀ acts port', svgCommand (svgChecked fl lib e) w line.args = ⟨acts, .done (some port')⟩ → Sent es port port') ∧
          (Ready es port → ∃ port', svgCommand (svgChecked fl lib e) w line.args =
            ⟨[.config name, .device dev, .picture file], .done (some port')⟩)) ∧
        (line.value "device" = none → svgCommand (svgChecked fl lib e) w line.args = ⟨[.config name, .picture file], .done none⟩) := by
  obtain ⟨z, h, q, B, hz, hread⟩ := H.sizes
  obtain ⟨es, t, T, b1, b2, b3, b4, b5, b6, b7, b8⟩ := C113_program fl R odd pw hpw lib hlib hang cfg.xy o (line.value "layer") e
    H.scale H.machine H.slow hs he v H.speed S M D ε κ N m H.limits H.small ρ H.margin n H.passes.1 H.passes.2 H.power H.ticks.1 H.ticks.2
    f H.even l H.nonempty H.valid H.paths z hz h q B δ hread H.fits θ hθ
  have hcfg' : fileConfig conv files name = some cfg.xy := (C112_file conv files name _).2 ⟨cfg, hcfg, rfl⟩
  obtain ⟨o', e1, e2⟩ := svgNumbers_value h1 h2 h3 h4 h5 hrep hp
  have e3 : o'.rounded fl = some o := by
    rw [SvgNumbers.rounded, e2, hopt]
    cases vMax <;> cases aMax <;> cases speed <;> rfl
  have key := fun port => svgChecked_port (lib := lib) (e := e) (cfg := cfg.xy) e3 (by rw [H.passes.1]; exact_mod_cast H.passes.2)
    (by have := H.power; omega) H.ticks.2 (line.value "layer") f.events port
  refine ⟨es, ⟨t, T, b1, b2, b3, b4, b5, b6⟩, ?_⟩
  intro devices w
  rw [svgCommand_line _ w line hl ho hh file hf name hc cfg.xy hcfg' H.ticks.2, e1]
  refine ⟨fun dev port hd hport => ?_, fun hd => ?_⟩
  · simp only [hd, w, svgRest, Option.map_some, hport, hdoc, Option.bind_some, id, key, Option.toList_some, List.map_cons,
      List.map_nil, List.cons_append, List.nil_append]
    refine ⟨fun acts port' hq => ?_, fun ⟨r0, t0, full, d, g1, g2, g3, g4, g5, g6⟩ => ?_⟩
    · revert hq
      cases hr : CheckedSvg.svgProgram fl lib cfg.xy o (line.value "layer") e f.events port with
      | none => simp
      | some r =>
        intro hq
        simp only [Run.mk.injEq, Out.done.injEq] at hq
        rw [hq.2] at hr
        exact b7 port port' hr
    · obtain ⟨port', hq⟩ := b8 port r0 t0 full d g1 g2 g3 g4 g5 g6
      exact ⟨port', by rw [hq]⟩
  · obtain ⟨r0, t0, full, d, g1, g2, g3, g4, g5, g6⟩ := ready_quick es
    obtain ⟨port', hq⟩ := b8 _ r0 t0 full d g1 g2 g3 g4 g5 g6
    have := (svgChecked_dry ((key _).trans hq)).1
    simp only [hd, w, svgRest, Option.map_none, hdoc, Option.bind_none, Option.toList_none, List.map_nil, List.cons_append,
      List.nil_append, this]

/-- C114: `image_raster` with a command line as documented, a file that says a configuration, and a picture and a machine as in
C105, with rounded `f64` and checked integers.  There are events that burn the picture; the program sends these
to the device and no others, if the device is ready it ends normally, and without a device it ends normally too. -/
theorem C114_raster (fl : ℝ → ℝ) (R : FloatRounding fl) (conv : List Char → Option ℝ) (files : List Char → Option (List Char))
    (pictures : List Char → Option (Option Image))
    (line : Line) (hl : line.Valid rasterKeys) (ho : line.Once) (hh : line.helps = 0)
    (file : Cli.Arg) (hf : line.files.head? = some file) (name : Cli.Arg) (hc : line.value "config" = some name)
    (cfg : Full) (hcfg : SaysConfig conv files name cfg)
    (vMax aMax speed width height spot : Option ℚ) (p : Option ℤ) (h1 : Float (line.value "v-max") vMax)
    (h2 : Float (line.value "a-max") aMax) (h3 : Float (line.value "draw-speed") speed)
    (h5 : Integer (line.value "intensity") p) (hp : ∀ k ∈ p, 0 ≤ k ∧ k ≤ 100) (h6 : Float (line.value "width") width)
    (h7 : Float (line.value "height") height) (h8 : Float (line.value "spot-diam") spot)
    (o : RasterOptions) (hopt : o = ⟨vMax.map fun x : ℚ => fl x, aMax.map fun x : ℚ => fl x, speed.map fun x : ℚ => fl x, p,
      width.map fun x : ℚ => fl x, height.map fun x : ℚ => fl x, spot.map fun x : ℚ => fl x⟩)
    (img : Image) (himg : pictures file = some (some img)) (w h d v : ℝ) (S : Scannable fl cfg.xy o img w h d v)
    (hb : ∀ i, vLimitF fl cfg.xy o.vMax i ≤ 2 ^ 24) :
    ∃ es, (∃ lines : ℕ, |(lines : ℝ) - h / (img.height * d)| ≤ 501 / 1000 ∧
        Burns (cfg.xy.stepper .x).stepsPerMillimeter (cfg.xy.stepper .y).stepsPerMillimeter w h
          ((w * cfg.xy.ticksPerSecond / v + img.width + 2) / |(cfg.xy.stepper .x).stepsPerMillimeter|)
          (((h / d + img.height) / 2 + 2) / |(cfg.xy.stepper .y).stepsPerMillimeter|)
          (weightOf (o.intensity.getD 5)) lines img es) ∧
      ∀ devices : List Char → Option Port, let wd : World (Option Image) := ⟨fileConfig conv files, pictures, devices⟩
        (∀ dev port, line.value "device" = some dev → devices dev = some port →
          (∀ acts port', rasterCommand (rasterChecked fl) wd line.args = ⟨acts, .done (some port')⟩ → Sent es port port') ∧
          (Ready es port → ∃ port', rasterCommand (rasterChecked fl) wd line.args =
            ⟨[.config name, .picture file, .device dev], .done (some port')⟩)) ∧
        (line.value "device" = none → rasterCommand (rasterChecked fl) wd line.args = ⟨[.config name, .picture file], .done none⟩) := by
  obtain ⟨es, lines, b1, b2, b7, b8⟩ := C107_program fl R cfg.xy o img w h d v S hb
  have hcfg' : fileConfig conv files name = some cfg.xy := (C112_file conv files name _).2 ⟨cfg, hcfg, rfl⟩
  obtain ⟨o', e1, e2⟩ := rasterNumbers_value h1 h2 h3 h5 hp h6 h7 h8
  have e3 : o'.rounded fl = some o := by
    rw [RasterNumbers.rounded, e2, hopt]
    simp only [Option.map_some, Option.map_map]
    rfl
  have key := fun port => rasterChecked_port (cfg := cfg.xy) e3 S.intensity S.ticks.2 img port
  refine ⟨es, ⟨lines, b1, b2⟩, ?_⟩
  intro devices wd
  rw [rasterCommand_line _ wd line hl ho hh file hf name hc cfg.xy hcfg' S.ticks.2, e1]
  refine ⟨fun dev port hd hport => ?_, fun hd => ?_⟩
  · simp only [hd, wd, rasterRest, Option.map_some, hport, himg, Option.bind_some, id, key, Option.toList_some, List.map_cons,
      List.map_nil, List.cons_append, List.nil_append]
    refine ⟨fun acts port' hq => ?_, fun ⟨r0, t0, full, d, g1, g2, g3, g4, g5, g6⟩ => ?_⟩
    · revert hq
      cases hr : Checked.rasterMain fl cfg.xy o img port with
      | none => simp
      | some r =>
        intro hq
        simp only [Run.mk.injEq, Out.done.injEq] at hq
        rw [hq.2] at hr
        exact b7 port port' hr
    · obtain ⟨port', hq⟩ := b8 port r0 t0 full d g1 g2 g3 g4 g5 g6
      exact ⟨port', by rw [hq]⟩
  · obtain ⟨r0, t0, full, d, g1, g2, g3, g4, g5, g6⟩ := ready_quick es
    obtain ⟨port', hq⟩ := b8 _ r0 t0 full d g1 g2 g3 g4 g5 g6
    have := (rasterChecked_dry ((key _).trans hq)).1
    simp only [hd, wd, rasterRest, Option.map_none, himg, Option.bind_none, Option.toList_none, List.map_nil, List.append_nil, this]

/-! ### Examples -/

/-- `-c xystepper_config.json --device=/dev/ttyS0 sample.png`. -/
def shippedLine : Line :=
  ⟨[.short 0 (key "c" "config") 'c' "xystepper_config.json".toList false,
    .word (key "d" "device") "/dev/ttyS0".toList true, .other "sample.png".toList], none⟩

/-- The sample picture on the machine of the shipped configuration file: with a ready device the program ends normally. -/
example (conv : List Char → Option ℝ) (h1 : conv "1966080".toList = some 1966080) (h2 : conv "50".toList = some 50)
    (h3 : conv "500".toList = some 500) :
    ∃ port port', rasterCommand (rasterChecked double)
      ⟨fileConfig conv fun _ => some (shippedTree.text ++ "\n\n".toList), fun _ => some (some samplePicture), fun _ => some port⟩
      ["-c".toList, "xystepper_config.json".toList, "--device=/dev/ttyS0".toList, "sample.png".toList] =
      ⟨[.config "xystepper_config.json".toList, .picture "sample.png".toList, .device "/dev/ttyS0".toList], .done (some port')⟩ := by
  have hs : (⟨128, fun _ => ⟨1966080, 50, 500⟩⟩ : Xy) = sampleConfig 1 := by
    unfold sampleConfig
    congr 1
    funext i
    cases i <;> norm_num
  obtain ⟨es, -, h⟩ := C114_raster double C90_double conv (fun _ => some (shippedTree.text ++ "\n\n".toList))
    (fun _ => some (some samplePicture)) shippedLine (by
      intro i hi
      simp only [shippedLine, List.mem_cons, List.not_mem_nil, or_false] at hi
      rcases hi with rfl | rfl | rfl <;> simp only [Item.Valid] <;> decide)
    ⟨by decide, by decide⟩ (by decide) "sample.png".toList (by decide) "xystepper_config.json".toList (by decide)
    ⟨⟨128, fun _ => ⟨1966080, 50, 500⟩⟩, ⟨255, 256, 5⟩⟩
    ⟨[], shippedTree, ['\n', '\n'], by simp [Ws], by simp [Ws], shipped_valid, rfl, shipped_config conv h1 h2 h3⟩
    none none none none none none none .none .none .none .none (by simp) .none .none .none _ rfl samplePicture rfl _ _ _ _
    (by simp only [hs]; exact sample_scannable)
    (fun i => by simp only [hs, Option.map_none]; rw [sample_limitsF.2]; norm_num [sampleV])
  obtain ⟨port', hp⟩ := ((h fun _ => some _).1 "/dev/ttyS0".toList _ (by decide) rfl).2 (ready_quick es)
  exact ⟨_, port', hp⟩

/-- `[80,2000,160000]`. -/
def quickStepper : Tree :=
  .arrayOf (.more [] (digitsTree [8, 0]) [] (.more [] (digitsTree [2, 0, 0, 0]) [] (.one [] (digitsTree [1, 6, 0, 0, 0, 0]) [])))

/-- `[800,[80,2000,160000],[80,2000,160000],[255,256,5]]`. -/
def quickTree : Tree :=
  .arrayOf (.more [] (digitsTree [8, 0, 0]) [] (.more [] quickStepper [] (.more [] quickStepper [] (.one []
    (.arrayOf (.more [] (digitsTree [2, 5, 5]) [] (.more [] (digitsTree [2, 5, 6]) [] (.one [] (digitsTree [5]) [])))) []))))

theorem quick_text : "[800,[80,2000,160000],[80,2000,160000],[255,256,5]]".toList = [] ++ quickTree.text ++ [] := by
  decide +kernel

theorem quick_valid : quickTree.Valid := by
  have hw : Ws [] := by simp [Ws]
  have hd : ∀ d : Digits, d ≠ [] → (d.head? = some 0 → d = [0]) → (digitsTree d).Valid := fun d => digitsTree_valid
  have hs : quickStepper.Valid := by
    simp only [quickStepper, Tree.Valid, Elems.Valid]
    exact ⟨hw, hd _ (by decide) (by decide), hw, hw, hd _ (by decide) (by decide), hw, hw, hd _ (by decide) (by decide), hw⟩
  simp only [quickTree, Tree.Valid, Elems.Valid]
  exact ⟨hw, hd _ (by decide) (by decide), hw, hw, hs, hw, hw, hs, hw, hw,
    ⟨hw, hd _ (by decide) (by decide), hw, hw, hd _ (by decide) (by decide), hw, hw, hd _ (by decide) (by decide), hw⟩, hw⟩

theorem quick_config (conv : List Char → Option ℝ) (h1 : conv "80".toList = some 80) (h2 : conv "2000".toList = some 2000)
    (h3 : conv "160000".toList = some 160000) : IsConfig conv ⟨quickXy, ⟨255, 256, 5⟩⟩ quickTree := by
  have hu : ∀ (k : ℕ) (d : Digits), d.val = k → k < 2 ^ 32 → IsU32 k (digitsTree d) := fun k d h h' => ⟨d, rfl, h, h'⟩
  have hf : ∀ (d : Digits) (x : ℝ), conv (Num.text ⟨.none, d, none, none⟩) = some x → IsFloat conv x (digitsTree d) :=
    fun d x h => ⟨_, rfl, h⟩
  have hs : IsStepper conv ⟨80, 2000, 160000⟩ quickStepper :=
    .inl ⟨_, rfl, .cons (hf [8, 0] _ h1) (.cons (hf [2, 0, 0, 0] _ h2) (.cons (hf [1, 6, 0, 0, 0, 0] _ h3) .nil))⟩
  exact .inl ⟨_, rfl, .cons (hu _ _ rfl (by norm_num [quickXy])) (.cons hs (.cons hs (.cons
    (.inl ⟨_, rfl, .cons (hu _ _ rfl (by decide)) (.cons (hu _ _ rfl (by decide)) (.cons (hu _ _ rfl (by decide)) .nil))⟩) .nil)))⟩

/-- `--intensity 100 -c quick.json --repeat=1 -dtty round.svg`. -/
def quickLine : Line :=
  ⟨[.word (key "" "intensity") "100".toList false, .short 0 (key "c" "config") 'c' "quick.json".toList false,
    .word (key "" "repeat") "1".toList true, .short 0 (key "d" "device") 'd' "tty".toList true, .other "round.svg".toList], none⟩

/-- The document of C103: with a ready device the program ends normally. -/
example (pw : ℝ → ℝ → ℝ) (hpw : FloatPow pw) (lib : Lib) (hlib : FloatLib lib) (hang : FloatAngles lib)
    (hat : ∀ y x, double (lib.atan2 y x) = lib.atan2 y x) (e : Rounded.Env) (he : e.stepScale = fun _ => 80)
    (hf : Searches e) (hC : FloatCurves double pw lib.sin lib.cos e)
    (conv : List Char → Option ℝ) (h1 : conv "80".toList = some 80) (h2 : conv "2000".toList = some 2000)
    (h3 : conv "160000".toList = some 160000) :
    ∃ port port', svgCommand (svgChecked double lib e)
      ⟨fileConfig conv fun _ => some "[800,[80,2000,160000],[80,2000,160000],[255,256,5]]".toList, fun _ => some roundDoc.events,
        fun _ => some port⟩
      ["--intensity".toList, "100".toList, "-c".toList, "quick.json".toList, "--repeat=1".toList, "-dtty".toList, "round.svg".toList] =
      ⟨[.config "quick.json".toList, .device "tty".toList, .picture "round.svg".toList], .done (some port')⟩ := by
  obtain ⟨v, hvd, -, L, hfit⟩ := round_fits lib hang hat e he
  obtain ⟨ha, hb'⟩ := quick_limitsF
  obtain ⟨es, -, h⟩ := C114_svg double C90_double C93_double_odd pw hpw lib hlib hang e hf hC conv
    (fun _ => some "[800,[80,2000,160000],[80,2000,160000],[255,256,5]]".toList) (fun _ => some roundDoc.events) quickLine (by
      intro i hi
      simp only [quickLine, List.mem_cons, List.not_mem_nil, or_false] at hi
      rcases hi with rfl | rfl | rfl | rfl | rfl <;> simp only [Item.Valid] <;> decide)
    ⟨by decide, by decide⟩ (by decide) "round.svg".toList (by decide) "quick.json".toList (by decide)
    ⟨quickXy, ⟨255, 256, 5⟩⟩
    ⟨[], quickTree, [], by simp [Ws], by simp [Ws], quick_valid, by rw [quick_text], quick_config conv h1 h2 h3⟩
    none none none (some 1) (some 100) .none .none .none
    (.some _ 1 ⟨.none, [1], by decide, by decide, by decide, by decide, by decide⟩)
    (.some _ 100 ⟨.none, [1, 0, 0], by decide, by decide, by decide, by decide, by decide⟩) (by simp) (by simp)
    ⟨none, none, none, some 1, some 100⟩ rfl roundDoc rfl [roundDrawing] v
    1 100 (1 / 10 ^ 6) (1 / 10 ^ 6) (1 / 9) 3 8 1 (fun _ => 5) _
    { scale := by rw [he]; rfl
      machine := by
        rw [ha, hb']
        exact ⟨by norm_num, by norm_num, by norm_num, by norm_num, by norm_num⟩
      slow := by rw [hb']; norm_num
      speed := hvd
      limits := by rw [ha, hb']; exact L
      small := fun i => by rw [he]; norm_num
      margin := fun i => by rw [he]; norm_num
      passes := ⟨rfl, le_rfl⟩
      power := by simp
      ticks := ⟨by decide, by decide⟩
      even := round_even _ _
      nonempty := by simp
      valid := by simpa using round_valid
      paths := round_paths
      sizes := ⟨_, 2, 20, 10, round_sizes, .cons (.inr round_readable) .nil⟩
      fits := hfit }
    (fun _ => 525 / 1000) (fun i => by rw [he]; norm_num)
  obtain ⟨port', hp⟩ := ((h fun _ => some _).1 "tty".toList _ (by decide) rfl).2 (ready_quick es)
  exact ⟨_, port', hp⟩

end StepperPaths.Props
