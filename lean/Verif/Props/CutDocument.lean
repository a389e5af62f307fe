import Verif.Proof.RoundedGrow
import Verif.Props.SvgIgnored
import Verif.Props.StrokeTime

/-!
C134: what `svg_path` does with a document that is cut off or damaged.  An error of the XML reader ends the document: the
paths before it are burnt, and the program ends as if all were well.  Any other error, in a path or in an attribute, is
found before anything is sent.  A document without paths, or with paths that only move, burns nothing.
-/

namespace StepperPaths.Props
open Coords Curves Context Control Spec Proof IntegerCurve Rounded Config StepperPaths.Cli
open Draw (Seg Past coord)
open Svg (XmlEvent DocState DocResult svgNs)
open Special (Num)

section
variable (fl : ℝ → ℝ) (lib : Lib)

/-- C134: an error of the XML reader is the end of the document. -/
theorem C134_cut (e : Rounded.Env) (cfg : Xy) (o : SvgNumbers) (layer : Option Cli.Arg) (before after : List XmlEvent)
    (p : Option Port) :
    Special.svgAny fl lib e cfg o layer (before ++ .error :: after) p = Special.svgAny fl lib e cfg o layer before p := by
  have := svgAny_congr fl lib e cfg o layer before (.error :: after) [] (fun _ => rfl) p
  rwa [List.append_nil] at this

theorem docLoopF_cut (keep : Svg.Filter) (t : List XmlEvent) : ∀ (es : List XmlEvent) (st : DocState) (r : DocResult),
    docLoopF fl lib keep (es ++ t) st = some r →
      (∃ segs, docLoopF fl lib keep es st = some (.ok segs) ∧ ∀ segs', r = .ok segs' → segs <+: segs') ∨
      docLoopF fl lib keep es st = some r ∧ ∀ segs', r ≠ .ok segs'
  | [], st, r, h => .inl ⟨_, rfl, fun segs' hr => Grow.loop (hr ▸ h)⟩
  | e :: es, st, r, h => by
    rw [List.cons_append, docLoopF] at h
    rw [docLoopF]
    split at h
    · cases h
    · cases h
      cases r with
      | ok segs => exact .inl ⟨segs, rfl, fun segs' hs => by cases hs; exact List.prefix_rfl⟩
      | err => exact .inr ⟨rfl, by simp⟩
      | panic => exact .inr ⟨rfl, by simp⟩
    · exact docLoopF_cut keep t es _ r h

/-- C134: if a document can be read, so can any beginning of it, and it is the beginning of the same path. -/
theorem C134_prefix (keep : Svg.Filter) (t0 : Transform) (before after : List XmlEvent) (path : List Seg)
    (h : parseDocumentF fl lib keep t0 (before ++ after) = some (.ok path)) :
    ∃ part, parseDocumentF fl lib keep t0 before = some (.ok part) ∧ part <+: path := by
  rcases docLoopF_cut fl lib keep after before _ _ h with ⟨segs, h1, h2⟩ | ⟨-, h⟩
  · exact ⟨segs, h1, h2 _ rfl⟩
  · exact absurd rfl (h path)

theorem docLoopF_bad (keep : Svg.Filter) (t : List XmlEvent) : ∀ (es : List XmlEvent) (st : DocState) (r : Option DocResult),
    docLoopF fl lib keep es st = r → (∀ segs, r ≠ some (.ok segs)) → docLoopF fl lib keep (es ++ t) st = r
  | [], st, r, h, hr => absurd h.symm (hr _)
  | e :: es, st, r, h, hr => by
    rw [List.cons_append, docLoopF]
    rw [docLoopF] at h
    split at h
    · exact h
    · exact h
    · exact docLoopF_bad keep t es _ r h hr

/-- C134: if the beginning of a document has an error other than of XML, nothing that may follow undoes it, and the
program sends nothing. -/
theorem C134_bad (e : Rounded.Env) (cfg : Xy) (o : SvgNumbers) (layer : Option Cli.Arg) (before after : List XmlEvent)
    (p : Option Port) (h : ∀ segs, parseDocumentF fl lib (Program.keepOf layer) .identity before ≠ some (.ok segs)) :
    Special.svgAny fl lib e cfg o layer (before ++ after) p = none := by
  have := docLoopF_bad fl lib (Program.keepOf layer) after before ⟨0, [], .identity, .new⟩ _ rfl h
  unfold Special.svgAny
  rw [show parseDocumentF fl lib (Program.keepOf layer) .identity (before ++ after) = _ from this]
  cases CheckedSvg.weight (o.intensity.getD 5) with
  | none => rfl
  | some w =>
    show (match docLoopF fl lib (Program.keepOf layer) before ⟨0, [], .identity, .new⟩ with
      | some (.ok path) => _
      | _ => _) = none
    split
    · rename_i hp
      exact absurd hp (h _)
    · rfl

/-- C134: a document that is cut off is drawn as far as it goes: if the program ends normally, what has been sent draws a
beginning of the path of the whole document. -/
theorem C134_svg (R : FloatRounding fl) (e : Rounded.Env) (cfg : Xy) (o : SvgNumbers) (layer : Option Cli.Arg)
    (before after rest : List XmlEvent) (path : List Seg) (p p' : Port)
    (hd : parseDocumentF fl lib (Program.keepOf layer) .identity (before ++ after) = some (.ok path))
    (h : Special.svgAny fl lib e cfg o layer (before ++ .error :: rest) (some p) = some (some p')) :
    ∃ es part, Sent es p p' ∧ part <+: path ∧
      DrawsOnly fl { e with stepScale := fun i => (cfg.stepper i).stepsPerMillimeter }
        (Special.drawSpeed fl cfg (o.drawSpeed.map (.ofF64 fl))) (Program.weightOf (o.intensity.getD 5)) part
        (o.repeats.getD 1).toNat es := by
  rw [C134_cut] at h
  obtain ⟨es, part, h1, h2, h3⟩ := C128_svg fl R lib e cfg o layer before p p' h
  obtain ⟨part', h4, h5⟩ := C134_prefix fl lib _ _ _ _ _ hd
  rw [h2] at h4
  cases h4
  exact ⟨es, part, h1, h5, h3⟩

/-- Without an element `path`. -/
def NoPath (doc : List XmlEvent) : Prop := ∀ attrs, XmlEvent.start ⟨"path", some "http://www.w3.org/2000/svg"⟩ attrs ∉ doc

theorem docLoopF_noPath (keep : Svg.Filter) : ∀ (es : List XmlEvent) (st : DocState) (segs : List Seg), NoPath es →
    docLoopF fl lib keep es st = some (.ok segs) → segs = st.path.segs
  | [], st, segs, _, h => by cases h; rfl
  | ev :: es, st, segs, hn, h => by
    have hn' : NoPath es := fun attrs ha => hn attrs (.tail _ ha)
    rw [docLoopF] at h
    split at h
    · cases h
    · rename_i r hs
      cases h
      cases ev with
      | error => cases hs; rfl
      | start n attrs =>
        simp only [docStepF] at hs
        repeat' split at hs
        all_goals cases hs
      | finish n =>
        simp only [docStepF] at hs
        repeat' split at hs
        all_goals cases hs
      | other => cases hs
    · rename_i st' hs
      rw [docLoopF_noPath keep es st' segs hn' h]
      cases ev with
      | error => cases hs
      | start n attrs =>
        simp only [docStepF] at hs
        split at hs
        · cases hs; rfl
        · split at hs
          · rename_i hns
            have hp : n.local ≠ "path" := by
              intro hp
              refine hn attrs ?_
              obtain ⟨l, ns⟩ := n
              simp only at hp hns
              subst hp hns
              exact .head _
            split at hs
            · cases hs
            · rw [if_neg hp] at hs
              split at hs
              · split at hs
                · cases hs
                · cases hs; rfl
              · cases hs; rfl
          · cases hs; rfl
      | finish n =>
        simp only [docStepF] at hs
        repeat' split at hs
        all_goals first
          | (cases hs; done)
          | (cases hs; rfl)
      | other => cases hs; rfl

theorem intended_moves {e : Rounded.Env} {P : Vec → Prop} {p0 : Vec} {path segs : List Seg} {n : ℕ} {l : List (Vec × Seg)}
    (hm : ∀ s ∈ path, ∃ q, s = .goTo q) (ho : Omit P path segs) (h : FloatIntended e p0 segs n l) : l = [] := by
  have hm' : ∀ s ∈ segs, ∃ q, s = .goTo q := by
    clear h
    induction ho with
    | nil => simp
    | keep s _ ih =>
      intro s' hs'
      rcases List.mem_cons.1 hs' with rfl | hs'
      · exact hm _ (.head _)
      · exact ih (fun s hs => hm s (.tail _ hs)) s' hs'
    | skip _ _ ih => exact ih fun s hs => hm s (.tail _ hs)
  clear ho
  induction h with
  | nil => rfl
  | move _ ih => exact ih fun s hs => hm' s (.tail _ hs)
  | short =>
    obtain ⟨q, hq⟩ := hm' _ (.head _)
    cases hq
  | draw hd =>
    obtain ⟨q, rfl⟩ := hm' _ (.head _)
    cases hd

/-- C134: moves burn nothing. -/
theorem C134_moves (e : Rounded.Env) (v : Num) (w : ℤ) (path : List Seg) (hm : ∀ s ∈ path, ∃ q, s = .goTo q) (n : ℕ)
    (es : List Event) (h : DrawsOnly fl e v w path n es) (w0 : ℤ) (τ : ℕ) : weightAt w0 es τ = 0 := by
  obtain ⟨T, h, off⟩ := h
  by_cases hτ : T ≤ τ
  · exact off w0 τ hτ
  · have key : ∀ {n t T : ℕ}, DrawsTimes fl e v w es path n t T → t = T := by
      intro n t T h
      induction h with
      | none => rfl
      | @again n t t1 T p0 err h1 h2 h3 ih =>
        obtain ⟨segs, m, l, G, D, k1, k2, k3, k4, k5⟩ := h2
        have hl := intended_moves hm k1 k2
        subst hl
        have hD : shapes fl e D = [] := by
          unfold shapes
          rw [List.map_eq_nil_iff, List.filter_eq_nil_iff]
          intro s hs
          have : (s.1, s.2.map Part.curve) ∈ curvesOf D := List.mem_map_of_mem hs
          obtain ⟨i, hi, he⟩ := List.mem_iff_getElem.1 this
          have hg := (List.forall₂_iff_get.1 k4).2 i (by rw [k4.length_eq]; exact hi) hi
          have hG : G[i]'(by rw [k4.length_eq]; exact hi) = [] :=
            List.flatten_eq_nil_iff.1 k3 _ (List.getElem_mem _)
          have := hg.1.length_eq
          simp only [List.get_eq_getElem, hG, he, List.length_nil, List.length_map] at this
          have : s.2 = [] := List.length_eq_zero_iff.1 this.symm
          simp [this]
        rw [hD] at k5
        cases k5
        exact ih
    have := key h
    omega

/-- C134: a document without paths burns nothing. -/
theorem C134_blank (R : FloatRounding fl) (e : Rounded.Env) (cfg : Xy) (o : SvgNumbers) (layer : Option Cli.Arg)
    (doc : List XmlEvent) (hn : NoPath doc) (p p' : Port)
    (h : Special.svgAny fl lib e cfg o layer doc (some p) = some (some p')) :
    ∃ es, Sent es p p' ∧ ∀ w0 τ, weightAt w0 es τ = 0 := by
  obtain ⟨es, path, h1, h2, h3⟩ := C128_svg fl R lib e cfg o layer doc p p' h
  have : path = [] := docLoopF_noPath fl lib _ doc _ path hn h2
  subst this
  exact ⟨es, h1, C134_moves fl _ _ _ _ (by simp) _ _ h3⟩

end

/-! ### Examples -/

/-- The document of C103, cut off by an error, burns like the whole. -/
example (pw : ℝ → ℝ → ℝ) (hpw : FloatPow pw) (lib : Lib) (hlib : FloatLib lib) (hang : FloatAngles lib)
    (hat : ∀ y x, double (lib.atan2 y x) = lib.atan2 y x) (e : Rounded.Env) (he : e.stepScale = fun _ => 80)
    (hf : Searches e) (hC : FloatCurves double pw lib.sin lib.cos e) (junk : List XmlEvent) :
    ∃ p p', Special.svgAny double lib e quickXy ⟨none, none, none, some 1, some 100⟩ none (roundDoc.events ++ .error :: junk) (some p) =
      some (some p') := by
  obtain ⟨p, p', -, h, -⟩ := round_burns pw hpw lib hlib hang hat e he hf hC
  exact ⟨p, p', by rw [C134_cut]; exact h⟩

/-- A path without an attribute `d` is an error, whatever follows. -/
example (fl : ℝ → ℝ) (lib : Lib) (e : Rounded.Env) (cfg : Xy) (o : SvgNumbers) (rest : List XmlEvent) (p : Option Port) :
    Special.svgAny fl lib e cfg o none (.other :: .start ⟨"path", some svgNs⟩ [⟨⟨"id", none⟩, "a".toList⟩] :: rest) p = none :=
  C134_bad fl lib e cfg o none [.other, .start ⟨"path", some svgNs⟩ [⟨⟨"id", none⟩, "a".toList⟩]] rest p fun segs => by
    simp [parseDocumentF, docLoopF, docStepF, Program.keepOf, Svg.noFilter, collectAllF, collectF]

/-- The beginning of a document with two elements. -/
example (fl : ℝ → ℝ) (lib : Lib) : ∃ part, parseDocumentF fl lib Svg.noFilter .identity [.start ⟨"g", some svgNs⟩ []] = some (.ok part) ∧
    part <+: [] :=
  C134_prefix fl lib Svg.noFilter .identity [.start ⟨"g", some svgNs⟩ []] [.other, .finish ⟨"g", some svgNs⟩] [] (by
    simp [parseDocumentF, docLoopF, docStepF, Svg.noFilter, collectAllF, Svg.PathState.new])

/-- A move to where the machine is. -/
example (fl : ℝ → ℝ) (h0 : fl 0 = 0) (e : Rounded.Env) (w0 : ℤ) (τ : ℕ) : weightAt w0 [⟨0, .weight 0⟩] τ = 0 := by
  have p0 : ∀ i, posAt i [⟨0, .weight 0⟩] 0 = 0 := fun i => rfl
  refine C134_moves fl e (.fin 1) 12 [.goTo ⟨0, 0⟩] (by simp) 1 _ ⟨0, ?_, ?_⟩ w0 τ
  · refine .again (p0 := ⟨0, 0⟩) (err := fun _ => 0) (t1 := 0) ?_ ⟨[], 0, [], [], [], .skip ⟨0, le_rfl, le_rfl, ?_⟩ .nil, .nil _, rfl, .nil, .nil 0⟩
      (.none 0)
    · intro i
      cases i <;> simp [coord, p0, h0]
    · intro i
      cases i <;> norm_num [coord, p0, h0, Draw.round]
  · intro w0 τ _
    simp [weightAt, valueFrom, weightAfter]

/-- The rectangle alone. -/
example : NoPath [.start ⟨"rect", some svgNs⟩ [], .finish ⟨"rect", some svgNs⟩] := by
  simp [NoPath, svgNs]

end StepperPaths.Props
