import Verif.Props.CutDocument
import Verif.Spec.SvgDoc

/-!
C135: what `--layer` does to a whole run of `svg_path`: it is the run without the option on the document from which the
layers with other labels have been taken out, with everything that is in them.  So a label that no layer has is no error:
all layers are left out, and if all paths are in layers, nothing is burnt.
-/

namespace StepperPaths.Props
open Coords Curves Context Control Spec Proof IntegerCurve Rounded Config StepperPaths.Cli
open Draw (Seg)
open Svg (XmlEvent DocState DocResult svgNs Filter Attr noFilter layerFilter)
open Spec.Svg (Forest)

/-- A layer that has not this label. -/
def OtherLayer (layer : List Char) (n : Svg.Name) (attrs : List Attr) : Prop :=
  n = ⟨"g", some "http://www.w3.org/2000/svg"⟩ ∧
    ⟨⟨"groupmode", some "http://www.inkscape.org/namespaces/inkscape"⟩, "layer".toList⟩ ∈ attrs ∧
    ⟨⟨"label", some "http://www.inkscape.org/namespaces/inkscape"⟩, layer⟩ ∉ attrs

open Classical in
/-- The document without these layers. -/
noncomputable def withoutOthers (layer : List Char) : Forest → Forest
  | .nil => .nil
  | .other rest => .other (withoutOthers layer rest)
  | .elem n attrs kids rest =>
    if OtherLayer layer n attrs then withoutOthers layer rest
    else .elem n attrs (withoutOthers layer kids) (withoutOthers layer rest)

/-- All paths are in layers that have not this label. -/
inductive InOthers (layer : List Char) : Forest → Prop
  | nil : InOthers layer .nil
  | other {rest : Forest} : InOthers layer rest → InOthers layer (.other rest)
  | layer {n : Svg.Name} {attrs : List Attr} {kids rest : Forest} :
      OtherLayer layer n attrs → InOthers layer rest → InOthers layer (.elem n attrs kids rest)
  | elem {n : Svg.Name} {attrs : List Attr} {kids rest : Forest} : n ≠ ⟨"path", some "http://www.w3.org/2000/svg"⟩ →
      InOthers layer kids → InOthers layer rest → InOthers layer (.elem n attrs kids rest)

/-- There are no layers with another label. -/
def NoOthers (layer : List Char) : Forest → Prop
  | .nil => True
  | .other rest => NoOthers layer rest
  | .elem n attrs kids rest => ¬OtherLayer layer n attrs ∧ NoOthers layer kids ∧ NoOthers layer rest

section
variable (fl : ℝ → ℝ) (lib : Lib)

theorem keep_other (layer : List Char) (n : Svg.Name) (attrs : List Attr) :
    layerFilter layer n attrs = false ↔ OtherLayer layer n attrs := C59_layer layer n attrs

theorem ignored (keep : Filter) (f : Forest) : ∀ (t : List XmlEvent) (st : DocState), 0 < st.ignore →
    docLoopF fl lib keep (f.events ++ t) st = docLoopF fl lib keep t st := by
  induction f with
  | nil => exact fun _ _ _ => rfl
  | other rest ih => exact fun t st h => ih t st h
  | elem n attrs kids rest ihk ihr =>
    intro t st h
    have h1 : docStepF fl lib keep st (.start n attrs) = some (.inr { st with ignore := st.ignore + 1 }) := by
      simp [docStepF, h]
    have h2 : docStepF fl lib keep { st with ignore := st.ignore + 1 } (.finish n) = some (.inr st) := by
      simp [docStepF]
    simp only [Forest.events, List.cons_append, List.append_assoc, docLoopF, h1]
    rw [ihk _ _ (Nat.succ_pos _)]
    simp only [docLoopF, h2]
    exact ihr t st h

theorem step_ignore {st st' : DocState} (hi : st.ignore = 0) {n : Svg.Name} {attrs : List Attr}
    (h : docStepF fl lib noFilter st (.start n attrs) = some (.inr st')) : st'.ignore = 0 := by
  simp only [docStepF, hi, noFilter, gt_iff_lt, lt_self_iff_false, decide_false, Bool.not_true,
    Bool.or_self, Bool.false_eq_true, if_false] at h
  repeat' split at h
  all_goals first
    | (cases h; done)
    | (cases h; exact hi)
    | (cases h; rfl)

theorem finish_ignore (keep : Filter) {st st' : DocState} (hi : st.ignore = 0) {n : Svg.Name}
    (h : docStepF fl lib keep st (.finish n) = some (.inr st')) : st'.ignore = 0 := by
  simp only [docStepF, hi, gt_iff_lt, lt_self_iff_false, if_false] at h
  repeat' split at h
  all_goals first
    | (cases h; done)
    | (cases h; exact hi)
    | (cases h; rfl)

/-- The tails are compared in all states in which nothing is ignored. -/
theorem loop_without (layer : List Char) (f : Forest) : ∀ (t t' : List XmlEvent),
    (∀ st : DocState, st.ignore = 0 → docLoopF fl lib (layerFilter layer) t st = docLoopF fl lib noFilter t' st) →
    ∀ st : DocState, st.ignore = 0 →
      docLoopF fl lib (layerFilter layer) (f.events ++ t) st = docLoopF fl lib noFilter ((withoutOthers layer f).events ++ t') st := by
  induction f with
  | nil => exact fun t t' h st hi => h st hi
  | other rest ih => exact fun t t' h st hi => ih t t' h st hi
  | elem n attrs kids rest ihk ihr =>
    intro t t' h st hi
    by_cases ho : OtherLayer layer n attrs
    · have hk : layerFilter layer n attrs = false := (keep_other layer n attrs).2 ho
      rw [withoutOthers, if_pos ho, ← ihr t t' h st hi]
      have h1 : docStepF fl lib (layerFilter layer) st (.start n attrs) = some (.inr { st with ignore := st.ignore + 1 }) := by
        simp [docStepF, hk]
      have h2 : docStepF fl lib (layerFilter layer) { st with ignore := st.ignore + 1 } (.finish n) = some (.inr st) := by
        simp [docStepF]
      simp only [Forest.events, List.cons_append, List.append_assoc, docLoopF, h1]
      rw [ignored fl lib _ _ _ _ (Nat.succ_pos _)]
      simp only [docLoopF, h2]
    · have hk : layerFilter layer n attrs = true := by
        rw [← Bool.not_eq_false, keep_other]; exact ho
      rw [withoutOthers, if_neg ho]
      have h1 : docStepF fl lib (layerFilter layer) st (.start n attrs) = docStepF fl lib noFilter st (.start n attrs) := by
        simp only [docStepF, hk, noFilter]
      simp only [Forest.events, List.cons_append, List.append_assoc]
      rw [docLoopF, docLoopF, h1]
      split
      · rfl
      · rfl
      · rename_i st' hs
        refine ihk _ _ (fun st hi => ?_) _ (step_ignore fl lib hi hs)
        rw [docLoopF, docLoopF]
        have h2 : docStepF fl lib (layerFilter layer) st (.finish n) = docStepF fl lib noFilter st (.finish n) := rfl
        rw [h2]
        split
        · rfl
        · rfl
        · rename_i st'' hs'
          exact ihr t t' h _ (finish_ignore fl lib _ hi hs')

/-- C135: the whole run with `--layer` is that without the option on the document without the other layers. -/
theorem C135_layer (e : Rounded.Env) (cfg : Xy) (o : SvgNumbers) (layer : List Char) (f : Forest) (p : Option Port) :
    Special.svgAny fl lib e cfg o (some layer) f.events p = Special.svgAny fl lib e cfg o none (withoutOthers layer f).events p := by
  have := loop_without fl lib layer f [] [] (fun _ _ => rfl) ⟨0, [], .identity, .new⟩ rfl
  rw [List.append_nil, List.append_nil] at this
  unfold Special.svgAny
  rw [show parseDocumentF fl lib (Program.keepOf (some layer)) .identity f.events =
    parseDocumentF fl lib (Program.keepOf none) .identity (withoutOthers layer f).events from this]

/-- C135: also if the document is cut off after some elements. -/
theorem C135_cut (e : Rounded.Env) (cfg : Xy) (o : SvgNumbers) (layer : List Char) (f : Forest) (rest : List XmlEvent)
    (p : Option Port) :
    Special.svgAny fl lib e cfg o (some layer) (f.events ++ .error :: rest) p =
      Special.svgAny fl lib e cfg o none (withoutOthers layer f).events p := by
  rw [C134_cut, C135_layer]

theorem without_none (layer : List Char) (f : Forest) (h : NoOthers layer f) : withoutOthers layer f = f := by
  induction f with
  | nil => rfl
  | other rest ih => rw [withoutOthers, ih h]
  | elem n attrs kids rest ihk ihr => rw [withoutOthers, if_neg h.1, ihk h.2.1, ihr h.2.2]

/-- C135: without other layers the option changes nothing. -/
theorem C135_no_layers (e : Rounded.Env) (cfg : Xy) (o : SvgNumbers) (layer : List Char) (f : Forest) (h : NoOthers layer f)
    (p : Option Port) :
    Special.svgAny fl lib e cfg o (some layer) f.events p = Special.svgAny fl lib e cfg o none f.events p := by
  rw [C135_layer, without_none layer f h]

theorem noPath_append {a b : List XmlEvent} (ha : NoPath a) (hb : NoPath b) : NoPath (a ++ b) := fun attrs h =>
  (List.mem_append.1 h).elim (ha attrs) (hb attrs)

theorem inOthers_noPath {layer : List Char} {f : Forest} (h : InOthers layer f) : NoPath (withoutOthers layer f).events := by
  induction h with
  | nil => simp [NoPath, withoutOthers, Forest.events]
  | other _ ih =>
    intro attrs ha
    rcases List.mem_cons.1 ha with ha | ha
    · cases ha
    · exact ih attrs ha
  | layer ho _ ih => rwa [withoutOthers, if_pos ho]
  | @elem n attrs kids rest hn _ _ ihk ihr =>
    rw [withoutOthers]
    split
    · exact ihr
    · intro attrs' ha
      rw [Forest.events, List.mem_cons, List.mem_append, List.mem_cons] at ha
      rcases ha with ha | ha | ha | ha
      · simp only [XmlEvent.start.injEq] at ha
        exact hn ha.1.symm
      · exact ihk _ ha
      · cases ha
      · exact ihr _ ha

/-- C135: a label that no layer has is no error: if all paths are in layers with other labels, the laser stays off. -/
theorem C135_misspelt (R : FloatRounding fl) (e : Rounded.Env) (cfg : Xy) (o : SvgNumbers) (layer : List Char) (f : Forest)
    (hf : InOthers layer f) (p p' : Port)
    (h : Special.svgAny fl lib e cfg o (some layer) f.events (some p) = some (some p')) :
    ∃ es, Sent es p p' ∧ ∀ w0 τ, weightAt w0 es τ = 0 := by
  rw [C135_layer] at h
  exact C134_blank fl lib R e cfg o none _ (inOthers_noPath hf) p p' h

/-- C135: layers in layers: what is in a layer with another label is left out, even a layer that has the label. -/
theorem C135_nested (layer : List Char) (n : Svg.Name) (attrs : List Attr) (kids rest : Forest) (h : OtherLayer layer n attrs) :
    withoutOthers layer (.elem n attrs kids rest) = withoutOthers layer rest := by
  rw [withoutOthers, if_pos h]

end

/-! ### Examples -/

/-- A drawing with two layers, the second with a layer in it. -/
def layered (d d' d'' : List Char) : Forest :=
  .elem ⟨"g", some svgNs⟩ [⟨⟨"groupmode", some Svg.inkscapeNs⟩, "layer".toList⟩, ⟨⟨"label", some Svg.inkscapeNs⟩, "cut".toList⟩]
    (.elem ⟨"path", some svgNs⟩ [⟨⟨"d", none⟩, d⟩] .nil .nil)
    (.elem ⟨"g", some svgNs⟩ [⟨⟨"groupmode", some Svg.inkscapeNs⟩, "layer".toList⟩, ⟨⟨"label", some Svg.inkscapeNs⟩, "fold".toList⟩]
      (.elem ⟨"path", some svgNs⟩ [⟨⟨"d", none⟩, d'⟩]  .nil
        (.elem ⟨"g", some svgNs⟩ [⟨⟨"groupmode", some Svg.inkscapeNs⟩, "layer".toList⟩, ⟨⟨"label", some Svg.inkscapeNs⟩, "cut".toList⟩]
          (.elem ⟨"path", some svgNs⟩ [⟨⟨"d", none⟩, d''⟩] .nil .nil) .nil)) .nil)

/-- With `--layer cut` the first path is drawn only. -/
example (fl : ℝ → ℝ) (lib : Lib) (e : Rounded.Env) (cfg : Xy) (o : SvgNumbers) (d d' d'' : List Char) (p : Option Port) :
    Special.svgAny fl lib e cfg o (some "cut".toList) (layered d d' d'').events p = Special.svgAny fl lib e cfg o none
      [.start ⟨"g", some svgNs⟩ [⟨⟨"groupmode", some Svg.inkscapeNs⟩, "layer".toList⟩, ⟨⟨"label", some Svg.inkscapeNs⟩, "cut".toList⟩],
        .start ⟨"path", some svgNs⟩ [⟨⟨"d", none⟩, d⟩], .finish ⟨"path", some svgNs⟩, .finish ⟨"g", some svgNs⟩] p := by
  rw [C135_layer]
  simp [layered, withoutOthers, OtherLayer, svgNs, Svg.inkscapeNs, Forest.events]

/-- With `--layer Cut` all paths are in other layers. -/
example (d d' d'' : List Char) : InOthers "Cut".toList (layered d d' d'') := by
  refine .layer ?_ (.layer ?_ .nil) <;> simp [OtherLayer, svgNs, Svg.inkscapeNs]

end StepperPaths.Props
