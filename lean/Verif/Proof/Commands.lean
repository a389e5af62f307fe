import Verif.Model.Commands
import Verif.Proof.CommandPrograms

namespace StepperPaths.Cli
open Control Config Context IntegerCurve Program Raster StepperPaths.Svg Rounded

variable {fl : ℝ → ℝ}

theorem svgChecked_port {lib : Lib} {e : Rounded.Env} {cfg : Xy} {o : SvgNumbers} {opts : Options} (h : o.rounded fl = some opts)
    (hn : 1 ≤ opts.repeats.getD 1) (hp : 0 ≤ opts.intensity.getD 5 ∧ opts.intensity.getD 5 ≤ 100)
    (ht : cfg.ticksPerSecond < 2 ^ 31) (layer : Option Arg) (doc : List XmlEvent) (port : Port) :
    svgChecked fl lib e cfg o layer doc (some port) = CheckedSvg.svgProgram fl lib cfg opts layer e doc port := by
  unfold svgChecked CheckedSvg.svgProgram
  have hc : ¬ (opts.repeats.getD 1 < 1 ∨ opts.intensity.getD 5 < 0 ∨ opts.intensity.getD 5 > 100) := by omega
  have hm : mulU32 2 cfg.ticksPerSecond = some (2 * cfg.ticksPerSecond) := by
    unfold mulU32
    rw [if_pos (by norm_num at ht; omega)]
  simp only [h, hm, Option.bind_eq_bind, Option.bind_some, if_neg hc]
  rfl

theorem svgChecked_dry {lib : Lib} {e : Rounded.Env} {cfg : Xy} {o : SvgNumbers} {layer : Option Arg} {doc : List XmlEvent}
    {port : Port} {p : Option Port} (h : svgChecked fl lib e cfg o layer doc (some port) = some p) :
    svgChecked fl lib e cfg o layer doc none = some none ∧ ∃ q, p = some q := by
  unfold svgChecked at h ⊢
  simp only [Option.bind_eq_bind, Option.bind_eq_some_iff] at h
  obtain ⟨opts, h1, w, h1', h⟩ := h
  simp only [h1, h1', Option.bind_eq_bind, Option.bind_some]
  split at h
  · rename_i path hpath
    simp only [Option.bind_eq_some_iff] at h
    obtain ⟨c, h2, u, h3, r, h4, h5⟩ := h
    simp only [h2, h3, Option.bind_some]
    refine ⟨trivial, ?_⟩
    split at h5
    · exact ⟨_, (Option.some.inj h5).symm⟩
    · simp at h5
  · simp at h

theorem rasterChecked_port {cfg : Xy} {o : RasterNumbers} {opts : RasterOptions} (h : o.rounded fl = some opts)
    (hp : 0 ≤ opts.intensity.getD 5 ∧ opts.intensity.getD 5 ≤ 100) (ht : cfg.ticksPerSecond < 2 ^ 31) (img : Image)
    (port : Port) : rasterChecked fl cfg o img (some port) = Checked.rasterMain fl cfg opts img port := by
  unfold rasterChecked Checked.rasterMain
  have hc : ¬ (opts.intensity.getD 5 < 0 ∨ opts.intensity.getD 5 > 100) := by omega
  have hm : mulU32 2 cfg.ticksPerSecond = some (2 * cfg.ticksPerSecond) := by
    unfold mulU32
    rw [if_pos (by norm_num at ht; omega)]
  simp only [h, hm, Option.bind_eq_bind, Option.bind_some, if_neg hc]
  rfl

theorem rasterChecked_dry {cfg : Xy} {o : RasterNumbers} {img : Image} {port : Port}
    {p : Option Port} (h : rasterChecked fl cfg o img (some port) = some p) :
    rasterChecked fl cfg o img none = some none ∧ ∃ q, p = some q := by
  unfold rasterChecked at h ⊢
  simp only [Option.bind_eq_bind, Option.bind_eq_some_iff] at h
  obtain ⟨opts, h1, x, h1', c, h2, u, h3, r, h4, h5⟩ := h
  simp only [h1, h1', h2, h3, Option.bind_eq_bind, Option.bind_some]
  refine ⟨trivial, ?_⟩
  split at h5
  · exact ⟨_, (Option.some.inj h5).symm⟩
  · simp at h5

end StepperPaths.Cli
