import Verif.Model.Program
import Verif.Model.SvgDoc

/-!
Model of `main` of `/repo/src/svg_path.rs` with the document: its XML events are the input.
-/

namespace StepperPaths.Program
open Context Draw Config Control Svg

/-- The filter, svg_path.rs 220-257. -/
def keepOf (layer : Option (List Char)) : Filter :=
  match layer with
  | some layer => layerFilter layer
  | none => noFilter

/-- `main` of svg_path.rs, lines 106-292, with the option `--layer`; results as for `svgMain`.  A
document that cannot be parsed is a panic, 260-261. -/
noncomputable def svgProgram (cfg : Xy) (o : Options) (layer : Option (List Char)) (e : Env) (doc : List XmlEvent)
    (port : Port) : Option (Option Port) :=
  let n := o.repeats.getD 1
  let percent := o.intensity.getD 5
  if n < 1 ∨ percent < 0 ∨ percent > 100 then some none
  else
    match parseDocument (keepOf layer) .identity doc with
    | some (.ok path) => svgMain cfg o e path port
    | _ => none

end StepperPaths.Program
