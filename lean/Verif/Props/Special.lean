import Verif.Proof.SpecialRaster
import Verif.Props.BigAcc

/-!
C117: options that are infinite, not a number or zero.  Both programs accept these (C109).
-/

namespace StepperPaths.Props
open Coords Curves Context IntegerCurve Config Control Program Raster StepperPaths.Svg Spec Cli Spec.Cli Rounded
open Draw (Seg satI32 coord)
open Special (Num svgAny rasterAny)

/-! ### Finite numbers -/

theorem map_ofF64 {fl : ℝ → ℝ} {v : Option F64} {q : Option ℚ} (h : finite v = some q) :
    v.map (Num.ofF64 fl) = (q.map fun x : ℚ => fl x).map Num.fin := by
  cases v with
  | none => cases h; rfl
  | some v =>
    cases v with
    | finite x => cases h; rfl
    | infinite b => cases h
    | nan => cases h

/-- C117: for finite numbers, and unless the drawing speed is zero, this is the program of C114. -/
theorem C117_finite_svg (fl : ℝ → ℝ) (lib : Lib) (e : Rounded.Env) (cfg : Xy) (o : SvgNumbers) (r : Options)
    (hr : o.rounded fl = some r) (hv : drawSpeedF fl cfg r.drawSpeed ≠ 0) (layer : Option Cli.Arg) (doc : List XmlEvent)
    (port : Option Port) : svgAny fl lib e cfg o layer doc port = svgChecked fl lib e cfg o layer doc port := by
  unfold svgChecked svgAny
  rw [hr]
  simp only [SvgNumbers.rounded, SvgNumbers.options, Option.bind_eq_bind] at hr
  obtain ⟨_, hs, rfl⟩ := Option.map_eq_some_iff.1 hr
  clear hr
  obtain ⟨v, h1, hr⟩ := Option.bind_eq_some_iff.1 hs
  obtain ⟨a, h2, hr⟩ := Option.bind_eq_some_iff.1 hr
  obtain ⟨d, h3, hr⟩ := Option.bind_eq_some_iff.1 hr
  simp only [Option.pure_def, Option.some.injEq] at hr
  subst hr
  have m : ∀ o : Option ℚ, (o.map (fun x : ℚ => (x : ℝ))).map fl = o.map fun x : ℚ => fl x := fun o => by cases o <;> rfl
  simp only [m] at hv
  simp only [Option.bind_eq_bind, Option.bind_some, map_ofF64 h1, map_ofF64 h2, map_ofF64 h3, m]
  congr 1
  funext w
  generalize parseDocumentF fl lib (keepOf layer) .identity doc = res
  rcases res with _ | res
  · rfl
  cases res with
  | ok path =>
    by_cases hT : cfg.ticksPerSecond = 0
    · simp [hT, cassert]
    · have hv' : Special.vLimit fl cfg ((v.map fun x : ℚ => fl x).map .fin) = _ := funext (Special.vLimit_fin hT _)
      have ha' : Special.svgALimit fl cfg ((a.map fun x : ℚ => fl x).map .fin) = _ := funext (Special.svgALimit_fin hT _)
      simp only [hv', ha', Special.drawSpeed_fin hT, Special.svgEvents_fin _ _ _ _ hv]
      rfl
  | _ => rfl

/-- C117: the same for `image_raster`, unless it divides by zero. -/
theorem C117_finite_raster (fl : ℝ → ℝ) (cfg : Xy) (o : RasterNumbers) (r : RasterOptions) (hr : o.rounded fl = some r) (img : Image)
    (hw : img.width ≠ 0) (hh : img.height ≠ 0) (q : Request) (hq : q = requestF fl r img.width img.height)
    (hx : fl (img.width * fl (q.speed * (cfg.stepper .x).stepsPerMillimeter)) ≠ 0) (hy : fl (img.height * q.spot) ≠ 0)
    (port : Option Port) : rasterAny fl cfg o img port = rasterChecked fl cfg o img port := by
  unfold rasterChecked rasterAny Special.rasterEvents
  rw [hr]
  simp only [RasterNumbers.rounded, RasterNumbers.options, Option.bind_eq_bind] at hr
  obtain ⟨_, hs, rfl⟩ := Option.map_eq_some_iff.1 hr
  clear hr
  obtain ⟨v, h1, hr⟩ := Option.bind_eq_some_iff.1 hs
  obtain ⟨a, h2, hr⟩ := Option.bind_eq_some_iff.1 hr
  obtain ⟨d, h3, hr⟩ := Option.bind_eq_some_iff.1 hr
  obtain ⟨x, h4, hr⟩ := Option.bind_eq_some_iff.1 hr
  obtain ⟨y, h5, hr⟩ := Option.bind_eq_some_iff.1 hr
  obtain ⟨s, h6, hr⟩ := Option.bind_eq_some_iff.1 hr
  simp only [Option.pure_def, Option.some.injEq] at hr
  subst hr
  have m : ∀ o : Option ℚ, (o.map (fun x : ℚ => (x : ℝ))).map fl = o.map fun x : ℚ => fl x := fun o => by cases o <;> rfl
  simp only [m] at hq ⊢
  have ha : Special.ask fl o img.width img.height = Special.ofRequest q := by
    rw [hq]
    simp only [Special.ask, map_ofF64 h3, map_ofF64 h4, map_ofF64 h5, map_ofF64 h6, Special.pictureSize_fin hw hh, Special.ofRequest,
      requestF]
    cases s <;> cases d <;> rfl
  simp only [ha, Option.bind_eq_bind, Option.bind_some, ← hq, map_ofF64 h1, map_ofF64 h2]
  by_cases hT : cfg.ticksPerSecond = 0
  · simp [hT, cassert]
  have hv' : Special.vLimit fl cfg ((v.map fun x : ℚ => fl x).map .fin) = _ := funext (Special.vLimit_fin hT _)
  have ha' : Special.rasterALimit fl cfg ((a.map fun x : ℚ => fl x).map .fin) = _ := funext (Special.rasterALimit_fin hT _)
  simp only [hv', ha']
  generalize Ctx.new _ _ = c
  have key : (realHeight (Special.params fl cfg (Special.ofRequest q) img.width img.height) img).bind
        (fun _ => Checked.raster (Special.params fl cfg (Special.ofRequest q) img.width img.height) img c) =
      (realHeight (paramsF fl cfg q img.width img.height) img).bind
        (fun _ => Checked.raster (paramsF fl cfg q img.width img.height) img c) := by
    by_cases h0 : resYF fl q img.height = 0
    · refine Special.raster_none (p := Special.params fl cfg (Special.ofRequest q) img.width img.height)
        (p' := paramsF fl cfg q img.width img.height) ?_ h0 (Special.resX_fin hx).symm (Special.vX_fin hw hx).symm rfl rfl rfl c
      simp only [Special.params, Special.resY_fin hy, h0]
    · have : Special.params fl cfg (Special.ofRequest q) img.width img.height = paramsF fl cfg q img.width img.height := by
        simp only [Special.params, Special.resX_fin hx, Special.vX_fin hw hx, Special.resY_fin hy, Special.stepY_fin hh hy h0]
        rfl
      rw [this]
  rw [key, Option.bind_assoc]
  rfl


/-! ### The drawing speed of `svg_path` -/

theorem speed_wild {fl : ℝ → ℝ} {cfg : Xy} {v : F64} (h : v.value = none) :
    Special.Wild (Special.drawSpeed fl cfg ((some v).map (Num.ofF64 fl))) := by
  refine Special.wild_div _ ?_
  cases v with
  | finite x => cases h
  | infinite b => intro x hx; cases hx
  | nan => intro x hx; cases hx

/-- C117: if the drawing speed is infinite or not a number, `svg_path` fails if it has to draw a line, an arc or a curve. -/
theorem C117_speed (fl : ℝ → ℝ) (lib : Lib) (e : Rounded.Env) (cfg : Xy) (o : SvgNumbers) (v : F64) (hv : o.drawSpeed = some v)
    (hv' : v.value = none) (hn : ∀ k ∈ o.repeats, 1 ≤ k) (layer : Option Cli.Arg) (doc : List XmlEvent) (path : List Seg)
    (hd : parseDocumentF fl lib (keepOf layer) .identity doc = some (.ok path))
    (hs : ∃ seg ∈ path, ¬ ∃ q, seg = .goTo q ∨ seg = .closeTo q) (port : Option Port) :
    svgAny fl lib e cfg o layer doc port = none := by
  unfold svgAny
  have hrep : (o.repeats.getD 1).toNat ≠ 0 := by
    cases h : o.repeats with
    | none => decide
    | some k => have := hn k h; simp; omega
  have hs' : ∃ seg ∈ path, Rounded.Drawn seg := by
    obtain ⟨seg, h1, h2⟩ := hs
    refine ⟨seg, h1, ?_⟩
    cases seg with
    | goTo q => exact h2 ⟨q, .inl rfl⟩
    | closeTo q => exact h2 ⟨q, .inr rfl⟩
    | _ => trivial
  simp only [hd, hv, Special.svgEvents_wild (speed_wild hv') _ _ _ hs' hrep, Option.bind_eq_bind, Option.bind_none]
  simp

/-- C117: if it has only to move, the drawing speed does not matter. -/
theorem C117_moves (fl : ℝ → ℝ) (lib : Lib) (e : Rounded.Env) (cfg : Xy) (o : SvgNumbers) (v v' : Option F64)
    (layer : Option Cli.Arg) (doc : List XmlEvent) (path : List Seg)
    (hd : parseDocumentF fl lib (keepOf layer) .identity doc = some (.ok path)) (hm : ∀ seg ∈ path, ∃ q, seg = .goTo q) (port : Option Port) :
    svgAny fl lib e cfg { o with drawSpeed := v } layer doc port = svgAny fl lib e cfg { o with drawSpeed := v' } layer doc port := by
  unfold svgAny
  simp only [hd]
  congr 1
  funext w
  rw [Special.svgEvents_moves _ (Special.drawSpeed fl cfg (v'.map (Num.ofF64 fl))) _ _ _ hm]

/-- C117: the same for the whole program: such a word for the drawing speed, otherwise any numbers that are accepted.  Nothing
is sent. -/
theorem C117_speed_command (fl : ℝ → ℝ) (lib : Lib) (e : Rounded.Env) (w : World (List XmlEvent)) (l : Cli.Line) (hl : l.Valid svgKeys)
    (ho : l.Once) (hh : l.helps = 0) (file : Cli.Arg) (hf : l.files.head? = some file) (name : Cli.Arg)
    (hc : l.value "config" = some name) (cfg : Xy) (hcfg : w.config name = some cfg) (htps : cfg.ticksPerSecond < 2 ^ 31)
    (hg : SvgGood l) (s : Cli.Arg) (hs : l.value "draw-speed" = some s) (hs' : NotFinite s)
    (doc : List XmlEvent) (hdoc : w.picture file = some doc) (path : List Seg)
    (hd : parseDocumentF fl lib (keepOf (l.value "layer")) .identity doc = some (.ok path))
    (hdraw : ∃ seg ∈ path, ¬ ∃ q, seg = .goTo q ∨ seg = .closeTo q) :
    (svgCommand (svgAny fl lib e) w l.args).out = .failed := by
  obtain ⟨o, hn⟩ := svgNumbers_ok.2 hg
  have key : (∃ v, o.drawSpeed = some v ∧ v.value = none) ∧ ∀ k ∈ o.repeats, 1 ≤ k := by
    have str : (lineMatches l).str "draw-speed" = l.value "draw-speed" := line_str l _ (by decide) (by decide)
    obtain ⟨v, hv, hv'⟩ := parseF64_word hs'
    have h := hn
    simp only [svgNumbers, bind, Except.bind] at h
    split at h
    · simp at h
    split at h
    · simp at h
    split at h
    · simp at h
    rename_i v3 h3
    split at h
    · simp at h
    rename_i v4 h4
    split at h
    · simp at h
    cases h
    constructor
    · refine ⟨v, ?_, hv'⟩
      simp only [floatOpt, str, hs, hv] at h3
      cases h3
      rfl
    · intro k hk
      simp only at hk
      rw [hk] at h4
      unfold intOpt at h4
      split at h4
      · cases h4
      · split at h4
        · split at h4
          · rename_i h
            cases h4
            simpa using h
          · cases h4
        · cases h4
  obtain ⟨⟨v, hv, hv'⟩, hr⟩ := key
  rw [svgCommand_line _ w l hl ho hh file hf name hc cfg hcfg htps, hn]
  simp only [svgRest, hdoc, C117_speed fl lib e cfg o v hv hv' hr _ doc path hd hdraw]
  split <;> rfl

/-- C117: the drawing speed zero.  The machine goes to the start of the stroke (here a point of the grid where it can rest), the
laser is set to the intensity for drawing, and then the machine stands still for `2^31 - 1` ticks.  That takes for each tick one
command for each axis. -/
theorem C117_zero (fl : ℝ → ℝ) (R : FloatRounding fl) (e : Rounded.Env) (aMax vMax : Axis → ℤ) (c c1 c2 : Ctx) (hc : Sync aMax vMax c)
    (start : Vec) (curve : Concat) (hcurve : curve ≠ []) (hlen : 0 < (concatInfo fl e curve).length) (n : Axis → ℤ)
    (hn : ∀ i, |n i| ≤ 2 ^ 53) (heven : ∀ i, n i % 2 = 0) (hstart : ∀ i, fl (coord start i * e.stepScale i) = n i)
    (hfirst : ∀ i, Rounded.stepPos fl e start ((concatInfo fl e curve).value 0).1 i = n i)
    (hlim : ∀ i, InLimits (n i - (c.channels i).pos) (c.channels i).v 0 (aMax i) (vMax i))
    (h1 : c.addWeightChange c.moveWeight (c.channels .x).ticks = some c1)
    (h2 : Checked.stepGotoSpeed c1 (n .x) (n .y) 0 0 = some c2) :
    ∃ c' d t, Special.drawCurve fl e c start curve (.fin 0) = some (c', fun _ => 0) ∧
      (∀ i, c2.channels i = ⟨n i, 0, t⟩) ∧ (∀ i, c'.channels i = ⟨n i, 0, t + 2147483647⟩) ∧
      c'.events = c2.events ++ ⟨d, .weight c.curveWeight⟩ :: ⟨0, .acc .x 0⟩ :: ⟨0, .acc .y 0⟩ :: Special.stillEvents 2147483646 := by
  have sync : ∀ c : Ctx, Sync aMax vMax c → c.ticks = some (c.channels .x).ticks := by
    intro c hc
    simp [Ctx.ticks, cassert, hc.inv.2.1]
  have s1 : Sync aMax vMax c1 := .step (op := .weight c.moveWeight (c.channels .x).ticks) hc (sync c hc) h1
  obtain ⟨-, hp1⟩ := addWeightChange_eq h1
  obtain ⟨-, e1⟩ := push_eq hp1
  have hgo := Checked.stepGotoSpeed_le c1 (n .x) (n .y) 0 0 c2 h2
  have s2 : Sync aMax vMax c2 := .step (op := .goto (n .x) (n .y) 0 0) s1 trivial hgo
  obtain ⟨-, -, hxy, hle⟩ := And.intro trivial s2.inv
  have hch : c1.channels = c.channels := by rw [e1]
  obtain ⟨g1, -, -, g2, g3⟩ := C25_arrives aMax vMax c1 c2 s1.reach _ _ 0 0 (by rw [hch]; exact hlim .x) (by rw [hch]; exact hlim .y) hgo
  have p1 := g2.2 (by have := heven .x; omega)
  have p2 := g3.2 (by have := heven .y; omega)
  simp only [Ctx.velocity, Prod.mk.injEq] at g1
  simp only [Ctx.position] at p1 p2
  have at2 : ∀ i, c2.channels i = ⟨n i, 0, (c2.channels .x).ticks⟩ := by
    intro i
    cases i
    · rw [← p1, ← g1.1]
    · rw [hxy, ← p2, ← g1.2]
  obtain ⟨c3, h3⟩ : ∃ c3, c2.addWeightChange c2.curveWeight (c2.channels .x).ticks = some c3 := by
    simp [Ctx.addWeightChange, cassert, Ctx.push, tickDiff, hle, ← hxy]
  obtain ⟨-, hp3⟩ := addWeightChange_eq h3
  obtain ⟨-, e3⟩ := push_eq hp3
  have k1 : c2.curveWeight = c.curveWeight := by
    obtain ⟨_, _, -, -, M, -⟩ := goto_spec s1.inv.1 hgo
    rw [M.cw, e1]
  have k2 : c3.aMax = aMax := by rw [e3]; exact s2.reach.inv.2.2.1
  have z := Special.fl_zero R
  have still : Special.Still c3 n (c2.channels .x).ticks := ⟨by rw [e3]; exact at2, by rw [e3]⟩
  obtain ⟨c', err, f1, f2, f3, f4⟩ := Special.curve_still R hlen hn hfirst still (by rw [e3]) (by
    rw [k2]
    intro i
    obtain ⟨h, -⟩ := hlim i
    omega)
  refine ⟨c', ((c2.channels .x).ticks - c2.eventTicks) % 4294967296, (c2.channels .x).ticks, ?_, at2, f2.at_, ?_⟩
  · have hx : Rounded.toSteps fl e start.x .x = some (n .x) := by
      have := hstart .x
      have h := hn .x
      rw [abs_le] at h
      simp only [coord] at this
      simp only [Rounded.toSteps, this, Draw.round_int, cassert]
      rw [if_pos (by omega)]
      rfl
    have hy : Rounded.toSteps fl e start.y .y = some (n .y) := by
      have := hstart .y
      have h := hn .y
      rw [abs_le] at h
      simp only [coord] at this
      simp only [Rounded.toSteps, this, Draw.round_int, cassert]
      rw [if_pos (by omega)]
      rfl
    have r0 : Draw.round 0 = 0 := by simpa using Draw.round_int 0
    have hv : ∀ x i, Special.toStepV fl e (.mul fl (.fin x) (.fin 0)) i = some 0 := by
      intro x i
      simp [Special.toStepV, z, r0, cassert]
    unfold Special.drawCurve
    rw [if_neg (by simpa using hcurve)]
    simp only [h1, Option.bind_eq_bind, Option.bind_some, Special.gotoSpeed, hx, hy, hv, h2, h3, f1]
    rw [funext f3]
  · rw [f4, e3, k1]
    simp


/-! ### The limits -/

theorem trunc_top {x : ℝ} (h : 2147483647 ≤ x) : satI32 (Draw.trunc x) = 2147483647 := by
  have : 2147483647 ≤ Draw.trunc x := by
    unfold Draw.trunc
    rw [if_pos (by linarith)]
    exact Int.le_floor.2 (by exact_mod_cast h)
  unfold satI32
  split_ifs <;> omega

theorem trunc_bottom {x : ℝ} (h : x ≤ -2147483648) : satI32 (Draw.trunc x) = -2147483648 := by
  have : Draw.trunc x ≤ -2147483648 := by
    unfold Draw.trunc
    rw [if_neg (by linarith)]
    have : 2147483648 ≤ ⌊-x⌋ := Int.le_floor.2 (by push_cast; linarith)
    omega
  unfold satI32
  split_ifs <;> omega

theorem mul_zero_nan {fl : ℝ → ℝ} (R : FloatRounding fl) (a : Num) :
    (Num.mul fl a .nan).asI32 = 0 ∧ (Num.mul fl .nan a).asI32 = 0 ∧ (Num.mul fl a (.fin 0)).asI32 = 0 ∧
      (Num.mul fl (.fin 0) a).abs.asI32 = 0 ∧ (Num.mul fl .nan a).abs.asI32 = 0 := by
  have t : satI32 (Draw.trunc 0) = 0 := by
    have : Draw.trunc 0 = 0 := by simpa using Special.trunc_int 0
    rw [this]; rfl
  cases a <;> simp [Num.mul, Num.asI32, Num.abs, Special.fl_zero R, t]

/-- C117: a limit that is not a number is the limit zero. -/
theorem C117_nan (fl : ℝ → ℝ) (R : FloatRounding fl) (cfg : Xy) :
    (∀ (lib : Lib) (e : Rounded.Env) (o : SvgNumbers) layer doc port,
      svgAny fl lib e cfg { o with vMax := some .nan } layer doc port =
        svgAny fl lib e cfg { o with vMax := some (.finite 0) } layer doc port ∧
      svgAny fl lib e cfg { o with aMax := some .nan } layer doc port =
        svgAny fl lib e cfg { o with aMax := some (.finite 0) } layer doc port) ∧
    ∀ (o : RasterNumbers) img port,
      rasterAny fl cfg { o with vMax := some .nan } img port = rasterAny fl cfg { o with vMax := some (.finite 0) } img port ∧
      rasterAny fl cfg { o with aMax := some .nan } img port = rasterAny fl cfg { o with aMax := some (.finite 0) } img port := by
  have z : Num.ofF64 fl (.finite 0) = .fin 0 := by simp [Num.ofF64, Special.fl_zero R]
  have hv : Special.vLimit fl cfg (some .nan) = Special.vLimit fl cfg (some (.fin 0)) := by
    funext i
    simp only [Special.vLimit, (mul_zero_nan R _).1, (mul_zero_nan R _).2.2.1]
  have h1 : Special.svgALimit fl cfg (some .nan) = Special.svgALimit fl cfg (some (.fin 0)) := by
    funext i
    simp only [Special.svgALimit, (mul_zero_nan R _).2.2.2]
  have h2 : Special.rasterALimit fl cfg (some .nan) = Special.rasterALimit fl cfg (some (.fin 0)) := by
    funext i
    simp only [Special.rasterALimit, (mul_zero_nan R _).2.2.2]
  have n : Num.ofF64 fl .nan = .nan := rfl
  refine ⟨fun lib e o layer doc port => ⟨?_, ?_⟩, fun o img port => ⟨?_, ?_⟩⟩
  · simp only [svgAny, Option.map_some, z, n, hv]
  · simp only [svgAny, Option.map_some, z, n, h1]
  · simp only [rasterAny, Special.rasterEvents, Option.map_some, z, n, hv, Special.ask]
  · simp only [rasterAny, Special.rasterEvents, Option.map_some, z, n, h2, Special.ask]

/-- C117: an infinite limit for the speed is any number that gives the largest speed limit on both axes, or the least one. -/
theorem C117_v_inf (fl : ℝ → ℝ) (R : FloatRounding fl) (cfg : Xy) (hT : cfg.ticksPerSecond ≠ 0) (neg : Bool) (q : ℚ)
    (hq : ∀ i, if neg then fl (|cfgVScale fl cfg i| * fl q) ≤ -2147483648 else 2147483647 ≤ fl (|cfgVScale fl cfg i| * fl q)) :
    (∀ (lib : Lib) (e : Rounded.Env) (o : SvgNumbers) layer doc port,
      svgAny fl lib e cfg { o with vMax := some (.infinite neg) } layer doc port =
        svgAny fl lib e cfg { o with vMax := some (.finite q) } layer doc port) ∧
    ∀ (o : RasterNumbers) img port,
      rasterAny fl cfg { o with vMax := some (.infinite neg) } img port = rasterAny fl cfg { o with vMax := some (.finite q) } img port := by
  have hv : Special.vLimit fl cfg (some (.inf neg)) = Special.vLimit fl cfg (some (.fin (fl q))) := by
    funext i
    have hi := hq i
    have hs : |cfgVScale fl cfg i| ≠ 0 := by
      intro h
      rw [h, zero_mul, Special.fl_zero R] at hi
      cases neg <;> norm_num at hi
    have hp : ¬ |cfgVScale fl cfg i| < 0 := not_lt.2 (abs_nonneg _)
    cases neg
    · simp only [Special.vLimit, Special.vScale_fin hT, Num.abs, Num.mul, hs, if_false, hp, decide_false, Bool.false_bne, Num.asI32]
      exact (trunc_top (by simpa using hi)).symm
    · simp only [Special.vLimit, Special.vScale_fin hT, Num.abs, Num.mul, hs, if_false, hp, decide_false, Bool.false_bne, Num.asI32]
      exact (trunc_bottom (by simpa using hi)).symm
  have n : Num.ofF64 fl (.infinite neg) = .inf neg := rfl
  have m : Num.ofF64 fl (.finite q) = .fin (fl q) := rfl
  refine ⟨fun lib e o layer doc port => ?_, fun o img port => ?_⟩
  · simp only [svgAny, Option.map_some, n, m, hv]
  · simp only [rasterAny, Special.rasterEvents, Option.map_some, n, m, hv, Special.ask]

/-- C117: an infinite limit for the acceleration, of any sign, is any number that gives the largest limit. -/
theorem C117_a_inf (fl : ℝ → ℝ) (R : FloatRounding fl) (cfg : Xy) (hT : cfg.ticksPerSecond ≠ 0) (neg : Bool) (q : ℚ) :
    ((∀ i, 2147483647 ≤ |fl (fl q * svgAScaleF fl cfg i)|) →
      ∀ (lib : Lib) (e : Rounded.Env) (o : SvgNumbers) layer doc port,
      svgAny fl lib e cfg { o with aMax := some (.infinite neg) } layer doc port =
        svgAny fl lib e cfg { o with aMax := some (.finite q) } layer doc port) ∧
    (2147483647 ≤ |fl (fl q * rasterAScaleF fl cfg)| → ∀ (o : RasterNumbers) img port,
      rasterAny fl cfg { o with aMax := some (.infinite neg) } img port =
        rasterAny fl cfg { o with aMax := some (.finite q) } img port) := by
  have key : ∀ A : ℝ, 2147483647 ≤ |fl (fl q * A)| →
      (Num.mul fl (.inf neg) (.fin A)).abs.asI32 = (Num.mul fl (.fin (fl q)) (.fin A)).abs.asI32 := by
    intro A hA
    have hs : A ≠ 0 := by
      intro h
      rw [h, mul_zero, Special.fl_zero R] at hA
      norm_num at hA
    simp only [Num.mul, hs, if_false, Num.abs, Num.asI32, trunc_top hA]
  have n : Num.ofF64 fl (.infinite neg) = .inf neg := rfl
  have m : Num.ofF64 fl (.finite q) = .fin (fl q) := rfl
  refine ⟨fun hq lib e o layer doc port => ?_, fun hq o img port => ?_⟩
  · have hv : Special.svgALimit fl cfg (some (.inf neg)) = Special.svgALimit fl cfg (some (.fin (fl q))) := by
      funext i
      simp only [Special.svgALimit, Special.svgAScale_fin hT, key _ (hq i)]
    simp only [svgAny, Option.map_some, n, m, hv]
  · have hv : Special.rasterALimit fl cfg (some (.inf neg)) = Special.rasterALimit fl cfg (some (.fin (fl q))) := by
      funext i
      simp only [Special.rasterALimit, Special.rasterAScale_fin hT, key _ hq]
    simp only [rasterAny, Special.rasterEvents, Option.map_some, n, m, hv, Special.ask]


/-- C117: with a speed limit that is not a number or minus infinity, or an acceleration limit that is not a number, nothing is
drawn (with a drawing speed as usual), and nothing is scanned (if the acceleration in the configuration is not negative). -/
theorem C117_fails (fl : ℝ → ℝ) (R : FloatRounding fl) (cfg : Xy) :
    (∀ (lib : Lib) (e : Rounded.Env) (o : SvgNumbers) (d : Option ℚ) layer doc port,
      finite o.drawSpeed = some d → drawSpeedF fl cfg (d.map fun x : ℚ => fl x) ≠ 0 →
      (o.vMax = some .nan ∨ o.vMax = some (.infinite true) ∨ o.aMax = some .nan) →
      svgAny fl lib e cfg o layer doc port = none) ∧
    ∀ (o : RasterNumbers) img port, 0 ≤ (cfg.stepper .x).maxAcceleration →
      (o.vMax = some .nan ∨ o.vMax = some (.infinite true) ∨ o.aMax = some .nan) →
      rasterAny fl cfg o img port = none := by
  have z := Special.fl_zero R
  have low : ∀ (v : Option F64) (i : Axis), v = some .nan ∨ v = some (.infinite true) → cfg.ticksPerSecond ≠ 0 →
      Special.vLimit fl cfg (v.map (Num.ofF64 fl)) i ≤ 0 := by
    intro v i h hT
    have hp : ¬ |cfgVScale fl cfg i| < 0 := not_lt.2 (abs_nonneg _)
    rcases h with rfl | rfl
    · simp only [Option.map_some, Num.ofF64, Special.vLimit, (mul_zero_nan R _).1, le_refl]
    · simp only [Option.map_some, Num.ofF64, Special.vLimit, Special.vScale_fin hT, Num.abs, Num.mul]
      split
      · simp [Num.asI32]
      · simp [Num.asI32, hp]
  have atrunc : ∀ a : Num, 0 ≤ a.abs.asI32 := by
    intro a
    have t : ∀ x : ℝ, 0 ≤ satI32 (Draw.trunc |x|) := by
      intro x
      have : 0 ≤ Draw.trunc |x| := by
        unfold Draw.trunc
        rw [if_pos (abs_nonneg _)]
        exact Int.floor_nonneg.2 (abs_nonneg _)
      unfold satI32
      split_ifs <;> omega
    cases a with
    | fin x => exact t x
    | inf b => simp [Num.abs, Num.asI32]
    | nan => simp [Num.abs, Num.asI32]
  have rnd : ∀ x : ℝ, -(1 / 2) < x → 0 ≤ satI32 (Draw.round x) := by
    intro x hx
    have : 0 ≤ Draw.round x := by
      unfold Draw.round
      split
      · exact Int.floor_nonneg.2 (by linarith)
      · have : ⌊-x + 1 / 2⌋ = 0 := Int.floor_eq_zero_iff.2 ⟨by linarith, by linarith⟩
        omega
    unfold satI32
    split_ifs <;> omega
  have stuck : ∀ (a v : Axis → ℤ), 0 ≤ a .x → v .x ≤ 0 ∨ a .x = 0 → ∃ i, a i = 0 ∨ v i < 0 ∨ v i = 0 ∧ 0 < a i := by
    intro a v h1 h2
    refine ⟨.x, ?_⟩
    omega
  refine ⟨fun lib e o d layer doc port hd hv h => ?_, fun o img port hacc h => ?_⟩
  · by_cases hT : cfg.ticksPerSecond = 0
    · unfold svgAny
      simp only [hT]
      generalize CheckedSvg.weight _ = w
      cases w with
      | none => rfl
      | some w =>
        generalize parseDocumentF fl lib (keepOf layer) .identity doc = res
        rcases res with _ | res
        · rfl
        cases res with
        | ok path => simp [cassert]
        | _ => rfl
    · have hs := stuck (Special.svgALimit fl cfg (o.aMax.map (.ofF64 fl))) (Special.vLimit fl cfg (o.vMax.map (.ofF64 fl))) (by
          cases ha : o.aMax with
          | none =>
            simp only [Option.map_none, Special.svgALimit, Special.svgAScale_fin hT, Special.mul_fin, Num.abs, Special.round_asI32]
            exact rnd _ (by have := abs_nonneg (fl (svgAScaleF fl cfg .x * (cfg.stepper .x).maxAcceleration)); linarith)
          | some a => exact atrunc _) (by
          rcases h with h | h | h
          · exact .inl (low _ _ (.inl h) hT)
          · exact .inl (low _ _ (.inr h) hT)
          · right
            simp only [h, Option.map_some, Num.ofF64, Special.svgALimit, (mul_zero_nan R _).2.2.2.2])
      unfold svgAny
      simp only [map_ofF64 hd, Special.drawSpeed_fin hT, Special.svgEvents_fin _ _ _ _ hv, ((C115_events fl _ _ hs).1 _ _ _ _ _).2]
      generalize CheckedSvg.weight _ = w
      cases w with
      | none => rfl
      | some w =>
        generalize parseDocumentF fl lib (keepOf layer) .identity doc = res
        rcases res with _ | res
        · rfl
        cases res <;> rfl
  · by_cases hT : cfg.ticksPerSecond = 0
    · simp [rasterAny, hT, cassert]
    · have hs := stuck (Special.rasterALimit fl cfg (o.aMax.map (.ofF64 fl))) (Special.vLimit fl cfg (o.vMax.map (.ofF64 fl))) (by
          cases ha : o.aMax with
          | none =>
            simp only [Option.map_none, Special.rasterALimit, Special.rasterAScale_fin hT, Num.abs, Special.mul_fin, Special.round_asI32]
            refine rnd _ ?_
            have h0 := mul_nonneg (abs_nonneg (rasterAScaleF fl cfg)) hacc
            have h1 := (abs_le.1 (near R (|rasterAScaleF fl cfg| * (cfg.stepper .x).maxAcceleration))).1
            rw [abs_of_nonneg h0] at h1
            have n1 : (2⁻¹ : ℝ) ^ 53 ≤ 1 := by norm_num
            have n2 : (2⁻¹ : ℝ) ^ 200 < 1 / 2 := by norm_num
            nlinarith
          | some a => exact atrunc _) (by
          rcases h with h | h | h
          · exact .inl (low _ _ (.inl h) hT)
          · exact .inl (low _ _ (.inr h) hT)
          · right
            simp only [h, Option.map_some, Num.ofF64, Special.rasterALimit, (mul_zero_nan R _).2.2.2.2])
      unfold rasterAny Special.rasterEvents
      simp only [((C115_events fl _ _ hs).2 _ _).2]
      simp

/-! ### The scan -/

theorem resX_one {fl : ℝ → ℝ} {cfg : Xy} {r : Special.Ask} {x : ℕ} {W : ℝ} (hw : r.width = .fin W) (hs : Special.Wild r.speed) :
    Special.resX fl cfg r x = 1 := by
  have h : Special.Wild (.mul fl (.fin x) (.mul fl r.speed (.fin (cfg.stepper .x).stepsPerMillimeter))) :=
    Special.mul_wild _ (Special.wild_mul _ hs)
  unfold Special.resX
  generalize Num.mul fl (.fin x) _ = a at h
  have r0 : Draw.round 0 = 0 := by simpa using Draw.round_int 0
  have t0 : Draw.trunc 0 = 0 := by simpa using Special.trunc_int 0
  have s0 : satU32 0 = 0 := by rfl
  cases a with
  | fin y => exact absurd rfl (h y)
  | inf b => simp [Special.width, hw, Num.div, Num.round, Num.asU32, r0, t0, s0]
  | nan => simp [Special.width, hw, Num.div, Num.round, Num.asU32]

/-- C117: for `image_raster`, a drawing speed that is infinite or not a number means one tick for each pixel, whatever the width.
So all of these act alike, and like a finite speed which gives less than one and a half ticks. -/
theorem C117_raster_speed (fl : ℝ → ℝ) (cfg : Xy) (o : RasterNumbers) (img : Image) (v : F64) (hv : v.value = none) (W : ℝ)
    (hw : (Special.ask fl o img.width img.height).width = .fin W) :
    Special.resX fl cfg (Special.ask fl { o with drawSpeed := some v } img.width img.height) img.width = 1 ∧
    ∀ v' port, (v'.value = none ∨
        Special.resX fl cfg (Special.ask fl { o with drawSpeed := some v' } img.width img.height) img.width = 1) →
      rasterAny fl cfg { o with drawSpeed := some v } img port = rasterAny fl cfg { o with drawSpeed := some v' } img port := by
  have one : ∀ v : F64, v.value = none →
      Special.resX fl cfg (Special.ask fl { o with drawSpeed := some v } img.width img.height) img.width = 1 := by
    intro v hv
    refine resX_one (W := W) hw ?_
    cases v with
    | finite x => cases hv
    | infinite b => intro x hx; cases hx
    | nan => intro x hx; cases hx
  refine ⟨one v hv, fun v' port h => ?_⟩
  have h' := h.elim (one v') id
  have hp : Special.params fl cfg (Special.ask fl { o with drawSpeed := some v } img.width img.height) img.width img.height =
      Special.params fl cfg (Special.ask fl { o with drawSpeed := some v' } img.width img.height) img.width img.height := by
    simp only [Special.params, Special.vX, one v hv, h']
    rfl
  simp only [rasterAny, Special.rasterEvents, hp]

/-- C117: nothing is scanned if the diameter of the spot is infinite or not a number, or the height is not a number: the
picture could as well be white, or any other of the same size. -/
theorem C117_raster_nothing (fl : ℝ → ℝ) (cfg : Xy) (o : RasterNumbers) (img img' : Image) (hW : img'.width = img.width)
    (hH : img'.height = img.height)
    (h : o.height = some .nan ∨ (∃ v H, o.spot = some v ∧ v.value = none ∧ (Special.ask fl o img.width img.height).height = .fin H))
    (port : Option Port) : rasterAny fl cfg o img port = rasterAny fl cfg o img' port := by
  have h0 : Special.resY fl (Special.ask fl o img.width img.height) img.height = 0 := by
    have r0 : Draw.round 0 = 0 := by simpa using Draw.round_int 0
    have t0 : Draw.trunc 0 = 0 := by simpa using Special.trunc_int 0
    have s0 : satU32 0 = 0 := by rfl
    unfold Special.resY
    rcases h with h | ⟨v, H, h1, h2, h3⟩
    · have : (Special.ask fl o img.width img.height).height = .nan := by
        simp only [Special.ask, h, Option.map_some]
        cases o.width <;> rfl
      rw [this]
      rfl
    · rw [h3]
      have h4 : (Special.ask fl o img.width img.height).spot = .ofF64 fl v := by simp [Special.ask, h1]
      rw [h4]
      cases v with
      | finite x => cases h2
      | infinite b =>
        simp only [Num.ofF64, Num.mul]
        split <;> simp [Num.div, Num.round, Num.asU32, r0, t0, s0]
      | nan => rfl
  unfold rasterAny
  have : Special.rasterEvents fl cfg o img = Special.rasterEvents fl cfg o img' := by
    unfold Special.rasterEvents
    simp only [hW, hH]
    exact Special.raster_none h0 h0 rfl rfl rfl hW hH _
  rw [this]


theorem checks_none {p : Params} {img : Image} (h : checks p img = none) (c : Ctx) : Checked.raster p img c = none := by
  simp [Checked.raster, h]

/-- C117: with an infinite width `image_raster` fails, if the picture has at least two columns. -/
theorem C117_raster_width (fl : ℝ → ℝ) (cfg : Xy) (hs : (cfg.stepper .x).stepsPerMillimeter ≠ 0) (o : RasterNumbers) (neg : Bool)
    (ho : o.width = some (.infinite neg)) (img : Image) (hx : 2 ≤ img.width) (port : Option Port) :
    rasterAny fl cfg o img port = none := by
  have hw : ∃ b, Special.width fl cfg (Special.ask fl o img.width img.height) = .inf b := by
    have : (Special.ask fl o img.width img.height).width = .inf neg := by
      simp only [Special.ask, ho, Option.map_some]
      cases o.height <;> rfl
    rw [Special.width, this]
    simp only [Num.mul, hs, if_false]
    exact ⟨_, rfl⟩
  obtain ⟨b, hw⟩ := hw
  set r := Special.ask fl o img.width img.height
  have h1 : Special.resX fl cfg r img.width = 1 ∨ Special.resX fl cfg r img.width = 4294967295 := by
    unfold Special.resX
    rw [hw]
    have key : ∀ a b : Num, Special.Wild a → (Num.div fl a b).round.asU32 = 0 ∨ (Num.div fl a b).round.asU32 = 4294967295 := by
      intro a b ha
      cases a with
      | fin x => exact absurd rfl (ha x)
      | inf s =>
        cases b with
        | fin y => cases hxy : xor s (decide (y < 0)) <;> simp [Num.div, Num.round, Num.asU32, hxy]
        | _ => simp [Num.div, Num.round, Num.asU32]
      | nan => cases b <;> simp [Num.div, Num.round, Num.asU32]
    rcases key _ (.mul fl (.fin img.width) (.mul fl r.speed (.fin (cfg.stepper .x).stepsPerMillimeter)))
      (Special.wild_mul (fl := fl) (v := .inf b) cfg.ticksPerSecond (by intro x hx; cases hx)) with h | h <;> rw [h] <;> simp
  have h2 : Special.vX fl cfg r img.width = 2147483647 ∨ Special.vX fl cfg r img.width = -2147483648 := by
    unfold Special.vX
    rw [hw]
    simp only [Num.div]
    cases xor b _ <;> simp [Num.round, Num.asI32]
  have h3 : checks (Special.params fl cfg r img.width img.height) img = none := by
    unfold checks
    rcases h1 with h1 | h1
    · have e : mulU32 (asU32 (Special.vX fl cfg r img.width)) 2 = some 4294967294 ∨
          mulU32 (asU32 (Special.vX fl cfg r img.width)) 2 = none := by
        rcases h2 with h2 | h2 <;> rw [h2]
        · left; rfl
        · right; rfl
      simp only [Special.params, h1]
      cases ha : mulU32 img.width 1 with
      | none => rfl
      | some interval =>
        have : interval = img.width := by
          unfold mulU32 at ha
          split at ha
          · cases ha; ring
          · cases ha
        rcases e with e | e
        · have : mulU32 4294967294 interval = none := by
            unfold mulU32
            rw [if_neg (by omega)]
          simp [e, this]
        · simp [e]
    · have : mulU32 img.width 4294967295 = none := by
        unfold mulU32
        rw [if_neg (by omega)]
      simp [Special.params, h1, this]
  simp [rasterAny, Special.rasterEvents, checks_none h3, r]

/-- C117: and with an infinite height, unless the diameter of the spot is negative or not finite. -/
theorem C117_raster_height (fl : ℝ → ℝ) (cfg : Xy) (hs : (cfg.stepper .y).stepsPerMillimeter ≠ 0) (o : RasterNumbers)
    (ho : o.height = some (.infinite false)) (img : Image) (D : ℝ)
    (hD : (Special.ask fl o img.width img.height).spot = .fin D) (hD' : 0 ≤ fl (img.height * D)) (port : Option Port) :
    rasterAny fl cfg o img port = none := by
  have hh : (Special.ask fl o img.width img.height).height = .inf false := by
    simp only [Special.ask, ho, Option.map_some]
    cases o.width <;> rfl
  set r := Special.ask fl o img.width img.height
  have h1 : Special.resY fl r img.height = 4294967295 := by
    simp [Special.resY, hh, hD, Num.div, not_lt.2 hD', Num.round, Num.asU32]
  have h2 : Special.stepY fl cfg r img.height = 9223372036854775807 ∨ Special.stepY fl cfg r img.height = -9223372036854775808 := by
    unfold Special.stepY
    rw [hh]
    simp only [Num.mul, hs, if_false, Num.div]
    cases xor (xor _ _) _ <;> simp [Num.round, Num.asI64]
  have h3 : realHeight (Special.params fl cfg r img.width img.height) img = none := by
    simp only [realHeight, Special.params, h1]
    rcases h2 with h2 | h2 <;> rw [h2] <;> simp [cassert]
  have h4 : Special.rasterEvents fl cfg o img = none := by
    simp only [Special.rasterEvents]
    change (realHeight (Special.params fl cfg r img.width img.height) img).bind _ = none
    rw [h3]
    rfl
  simp [rasterAny, h4]

/-- C117: and with a spot of the diameter zero, if the picture has at least two rows. -/
theorem C117_raster_spot (fl : ℝ → ℝ) (R : FloatRounding fl) (cfg : Xy) (o : RasterNumbers) (ho : o.spot = some (.finite 0))
    (img : Image) (hy : 2 ≤ img.height) (H : ℝ) (hH : (Special.ask fl o img.width img.height).height = .fin H) (hH' : 0 < H)
    (port : Option Port) : rasterAny fl cfg o img port = none := by
  have hs : (Special.ask fl o img.width img.height).spot = .fin 0 := by
    simp [Special.ask, ho, Num.ofF64, Special.fl_zero R]
  set r := Special.ask fl o img.width img.height
  have h1 : Special.resY fl r img.height = 4294967295 := by
    simp [Special.resY, hH, hs, Num.div, Special.fl_zero R, hH'.ne', not_lt.2 hH'.le, Num.round, Num.asU32]
  have h3 : checks (Special.params fl cfg r img.width img.height) img = none := by
    have : mulU32 4294967295 img.height = none := by
      unfold mulU32
      rw [if_neg (by omega)]
    simp [checks, Special.params, h1, this]
  simp [rasterAny, Special.rasterEvents, checks_none h3, r]


/-! ### Examples -/

/-- `-cm --draw-speed=Inf f` -/
def wildLine : Cli.Line :=
  ⟨[.short 0 (key "c" "config") 'c' "m".toList true, .word (key "v" "draw-speed") "Inf".toList true, .other "f".toList], none⟩

/-- The drawing of C95 cannot be drawn with an infinite speed. -/
example (lib : Lib) (e : Rounded.Env) (w : World (List XmlEvent)) (hcfg : w.config "m".toList = some (sampleConfig 1))
    (hd : w.picture "f".toList = some bendDoc.events) :
    (svgCommand (svgAny double lib e) w ["-cm".toList, "--draw-speed=Inf".toList, "f".toList]).out = .failed := by
  have word : NotFinite "Inf".toList := ⟨.none, "Inf".toList, by decide, by decide⟩
  have none : ∀ (P : Cli.Arg → Prop) {o : Option Cli.Arg}, o = .none → IfGiven P o := by
    rintro P _ rfl s hs
    cases hs
  refine C117_speed_command double lib e w wildLine (by
      intro i hi
      simp only [wildLine, List.mem_cons, List.not_mem_nil, or_false] at hi
      rcases hi with rfl | rfl | rfl <;> simp only [Item.Valid] <;> decide)
    ⟨by decide, by decide⟩ (by decide) "f".toList (by decide) "m".toList (by decide) (sampleConfig 1) hcfg (by norm_num [sampleConfig])
    ⟨none _ (by decide), none _ (by decide), ?_, none _ (by decide), none _ (by decide)⟩ "Inf".toList (by decide) word _ hd
    _ (bend_computed lib) ⟨.lineTo ⟨30, 50⟩, by simp, by simp⟩
  rintro s hs
  have : s = "Inf".toList := by
    have h : wildLine.value "draw-speed" = some "Inf".toList := by decide
    rw [h] at hs
    cases hs
    rfl
  rw [this]
  exact .inr word

/-- Without options the drawing speed is not zero. -/
example (lib : Lib) (e : Rounded.Env) (doc : List XmlEvent) (port : Option Port) :
    svgAny double lib e (sampleConfig 1) ⟨none, none, none, none, none⟩ none doc port =
      svgChecked double lib e (sampleConfig 1) ⟨none, none, none, none, none⟩ none doc port := by
  refine C117_finite_svg double lib e _ _ _ rfl ?_ _ _ _
  have := fl_ge C90_double (y := 20 / 128) (by rw [abs_of_pos (by norm_num)]; norm_num)
  simp only [drawSpeedF, Option.map_none, Option.getD_none, sampleConfig]
  intro h
  norm_num at this h
  rw [h] at this
  norm_num at this

/-- A line of 5 mm from (2 mm, 0), with ten steps for a millimeter and the speed zero: the machine goes to step 20 and stays there. -/
example : ∃ (c c' : Ctx) (d t : ℕ), Special.drawCurve double ⟨fun _ => 10, fun _ _ => 0, fun _ _ => none⟩
      ((Ctx.new (fun _ => 2) (fun _ => 100)).setWeight 12) ⟨2, 0⟩ [⟨⟨5, 0⟩, 5, ⟨5, fun s => (⟨s, 0⟩, ⟨1, 0⟩)⟩⟩] (.fin 0) =
      some (c', fun _ => 0) ∧ c.channels .x = ⟨20, 0, t⟩ ∧ c'.channels .x = ⟨20, 0, t + 2147483647⟩ ∧
    c'.events = c.events ++ ⟨d, .weight 12⟩ :: ⟨0, .acc .x 0⟩ :: ⟨0, .acc .y 0⟩ :: Special.stillEvents 2147483646 := by
  have i : ∀ n : ℤ, |n| ≤ 2 ^ 53 → double n = n := C90_double.int
  have z : double 0 = 0 := Special.fl_zero C90_double
  have n2 : double 2 = 2 := by simpa using i 2 (by norm_num)
  have n20 : double 20 = 20 := by simpa using i 20 (by norm_num)
  set c : Ctx := (Ctx.new (fun _ => 2) (fun _ => 100)).setWeight 12 with hcd
  have hc : Sync (fun _ => 2) (fun _ => 100) c := .step (op := .setWeight 12) .new trivial rfl
  obtain ⟨c1, h1⟩ : ∃ c1, c.addWeightChange c.moveWeight (c.channels .x).ticks = some c1 := by
    simp [hcd, Ctx.addWeightChange, cassert, Ctx.push, tickDiff, Ctx.new, Ctx.setWeight]
  have s1 : Sync (fun _ => 2) (fun _ => 100) c1 := .step (op := .weight c.moveWeight (c.channels .x).ticks) hc rfl h1
  obtain ⟨-, hp1⟩ := addWeightChange_eq h1
  obtain ⟨-, e1⟩ := push_eq hp1
  have ch : ∀ i, c1.channels i = ⟨0, 0, 0⟩ := by intro i; rw [e1]; rfl
  obtain ⟨c2, h2⟩ := C25_returns_in_time _ _ c1 s1 20 0 0 0
    ⟨by norm_num, by norm_num, by norm_num, by simp [ch], by norm_num, by simp [ch]⟩
    ⟨by norm_num, by norm_num, by norm_num, by simp [ch], by norm_num, by simp [ch]⟩
    (by norm_num) (by norm_num) (by norm_num) (by simp [ch]) (by simp [ch])
  have k1 : c1.aMax = fun _ => 2 := s1.reach.inv.2.2.1
  have k2 : c1.vMax = fun _ => 100 := s1.reach.inv.2.2.2.1
  have h2' : Checked.stepGotoSpeed c1 20 0 0 0 = some c2 := by
    rw [C89_goto c1 20 0 0 0
      ⟨by simp [k1], by simp [k1], by simp [k2], by simp [k2], by simp [ch, k2], by simp [k2], by simp [ch]⟩
      ⟨by simp [k1], by simp [k1], by simp [k2], by simp [k2], by simp [ch, k2], by simp [k2], by simp [ch]⟩
      (by simp [ch]) (by norm_num) (by norm_num)]
    exact h2
  obtain ⟨c', d, t, g1, g2, g3, g4⟩ := C117_zero double C90_double ⟨fun _ => 10, fun _ _ => 0, fun _ _ => none⟩ _ _ c c1 c2 hc ⟨2, 0⟩
    [⟨⟨5, 0⟩, 5, ⟨5, fun s => (⟨s, 0⟩, ⟨1, 0⟩)⟩⟩] (by simp) (by simp [concatInfo, Concat.totalLength])
    (fun | .x => 20 | .y => 0) (fun i => by cases i <;> norm_num) (fun i => by cases i <;> norm_num)
    (fun i => by cases i <;> norm_num [coord, z, n20])
    (fun i => by cases i <;> norm_num [coord, concatInfo, concatValue, Rounded.stepPos, Rounded.vadd, z, n2, n20])
    (fun i => by cases i <;> exact ⟨by norm_num, by norm_num, by norm_num, by norm_num [hcd, Ctx.new, Ctx.setWeight], by norm_num,
      by norm_num [hcd, Ctx.new, Ctx.setWeight]⟩)
    h1 h2'
  exact ⟨c2, c', d, t, g1, g2 .x, g3 .x, g4⟩

/-- On the shipped machine an infinite `--v-max` is the same as 10^30 mm/s, and an infinite `--a-max` the same as 10^30 mm/s². -/
example (lib : Lib) (e : Rounded.Env) (doc : List XmlEvent) (port : Option Port) (neg : Bool) :
    svgAny double lib e (sampleConfig 1) ⟨some (.infinite false), none, none, none, none⟩ none doc port =
      svgAny double lib e (sampleConfig 1) ⟨some (.finite (10 ^ 30)), none, none, none, none⟩ none doc port ∧
    svgAny double lib e (sampleConfig 1) ⟨none, some (.infinite neg), none, none, none⟩ none doc port =
      svgAny double lib e (sampleConfig 1) ⟨none, some (.finite (10 ^ 30)), none, none, none⟩ none doc port := by
  have ge : ∀ y b : ℝ, 1 ≤ b → 2 * b ≤ |y| → b ≤ |double y| := by
    intro y b hb h
    have := fl_ge C90_double (y := y) (le_trans (by norm_num) (le_trans (by linarith : (1 : ℝ) ≤ 2 * b) h))
    have n1 : (1 / 2 : ℝ) ≤ 1 - 2⁻¹ ^ 50 := by norm_num
    nlinarith [abs_nonneg y]
  have hq : (10 ^ 29 : ℝ) ≤ |double ((10 ^ 30 : ℚ) : ℝ)| := ge _ _ (by norm_num) (by norm_num)
  have hq0 : (0 : ℝ) ≤ double ((10 ^ 30 : ℚ) : ℝ) := by
    have := (abs_le.1 (near C90_double ((10 ^ 30 : ℚ) : ℝ))).1
    norm_num at this ⊢
    linarith
  have hs : ∀ i, 1000 ≤ |cfgVScale double (sampleConfig 1) i| := by
    intro i
    refine ge _ _ (by norm_num) ?_
    cases i <;> norm_num [sampleConfig]
  have ha : ∀ i, 3 ≤ |svgAScaleF double (sampleConfig 1) i| := by
    intro i
    refine ge _ _ (by norm_num) ?_
    have := hs i
    have hT : ((sampleConfig 1).ticksPerSecond : ℝ) = 128 := by norm_num [sampleConfig]
    rw [abs_div, hT, abs_of_pos (by norm_num : (0 : ℝ) < 128), le_div_iff₀ (by norm_num)]
    linarith
  constructor
  · refine (C117_v_inf double C90_double (sampleConfig 1) (by norm_num [sampleConfig]) false (10 ^ 30) (fun i => ?_)).1 lib e
      ⟨none, none, none, none, none⟩ none doc port
    have h0 : 0 ≤ |cfgVScale double (sampleConfig 1) i| * double ((10 ^ 30 : ℚ) : ℝ) := mul_nonneg (abs_nonneg _) hq0
    have h1 : (10 ^ 29 : ℝ) ≤ |cfgVScale double (sampleConfig 1) i| * double ((10 ^ 30 : ℚ) : ℝ) := by
      rw [abs_of_nonneg hq0] at hq
      nlinarith [hs i]
    have := (abs_le.1 (near C90_double (|cfgVScale double (sampleConfig 1) i| * double ((10 ^ 30 : ℚ) : ℝ)))).1
    rw [abs_of_nonneg h0] at this
    have n1 : (2⁻¹ : ℝ) ^ 53 ≤ 1 / 2 := by norm_num
    have n2 : (2⁻¹ : ℝ) ^ 200 ≤ 1 := by norm_num
    simp only [Bool.false_eq_true, if_false]
    have n3 := mul_le_mul_of_nonneg_right n1 h0
    have n4 : (2147483647 + 1) * 2 ≤ (10 : ℝ) ^ 29 := by norm_num
    have n5 := le_trans n4 h1
    generalize |cfgVScale double (sampleConfig 1) i| * double ((10 ^ 30 : ℚ) : ℝ) = X at *
    linarith
  · refine (C117_a_inf double C90_double (sampleConfig 1) (by norm_num [sampleConfig]) neg (10 ^ 30)).1 (fun i => ?_) lib e
      ⟨none, none, none, none, none⟩ none doc port
    refine ge _ _ (by norm_num) ?_
    rw [abs_mul]
    nlinarith [ha i]

/-- With `--v-max=nan` nothing is drawn on the shipped machine. -/
example (lib : Lib) (e : Rounded.Env) (doc : List XmlEvent) (port : Option Port) :
    svgAny double lib e (sampleConfig 1) ⟨some .nan, none, none, none, none⟩ none doc port = none :=
  (C117_fails double C90_double (sampleConfig 1)).1 lib e ⟨some .nan, none, none, none, none⟩ none none doc port rfl (by
    have := fl_ge C90_double (y := 20 / 128) (by rw [abs_of_pos (by norm_num)]; norm_num)
    simp only [drawSpeedF, Option.map_none, Option.getD_none, sampleConfig]
    intro h
    norm_num at this h
    rw [h] at this
    norm_num at this) (.inl rfl)

/-- The sample picture: with a spot of infinite size nothing is burnt, an infinite width cannot be burnt. -/
example (port : Option Port) :
    rasterAny double (sampleConfig 1) ⟨none, none, none, none, none, some (.finite 10), some (.infinite false)⟩ samplePicture port =
      rasterAny double (sampleConfig 1) ⟨none, none, none, none, none, some (.finite 10), some (.infinite false)⟩
        ⟨4, 2, fun _ _ => 255⟩ port ∧
    rasterAny double (sampleConfig 1) ⟨none, none, none, none, some (.infinite true), none, none⟩ samplePicture port = none :=
  ⟨C117_raster_nothing double _ _ samplePicture ⟨4, 2, fun _ _ => 255⟩ rfl rfl (.inr ⟨_, _, rfl, rfl, rfl⟩) port,
    C117_raster_width double _ (by norm_num [sampleConfig]) _ true rfl _ (by decide) port⟩

/-- With the speed `inf` or `nan` each pixel of the sample picture takes one tick; with a spot of size zero or an infinite height
the program fails. -/
example (port : Option Port) :
    Special.resX double (sampleConfig 1) (Special.ask double ⟨none, none, some .nan, none, none, none, none⟩ 4 2) 4 = 1 ∧
    rasterAny double (sampleConfig 1) ⟨none, none, none, none, none, some (.infinite false), some (.finite 0)⟩ samplePicture port = none ∧
    rasterAny double (sampleConfig 1) ⟨none, none, none, none, none, some (.finite 10), some (.finite 0)⟩ samplePicture port = none := by
  have z : double 0 = 0 := Special.fl_zero C90_double
  have n10 : double 10 = 10 := by simpa using C90_double.int 10 (by norm_num)
  refine ⟨(C117_raster_speed double (sampleConfig 1) ⟨none, none, none, none, none, none, none⟩ samplePicture .nan rfl 20 rfl).1, ?_, ?_⟩
  · exact C117_raster_height double _ (by norm_num [sampleConfig]) _ rfl _ 0 (by simp [Special.ask, Num.ofF64, z]) (by simp [z]) port
  · exact C117_raster_spot double C90_double _ _ rfl _ (by decide) 10 (by simp [Special.ask, Special.pictureSize, Num.ofF64, n10])
      (by norm_num) port

end StepperPaths.Props
