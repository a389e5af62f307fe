import Verif.Proof.RoundedInside
import Verif.Proof.SvgDoc

/-! The loop over a document, with rounding. -/

namespace StepperPaths.Rounded.Acc
open Spec Coords Draw StepperPaths.Svg Context Spec.Svg

variable {fl : ℝ → ℝ} {lib : Lib}

/-- What has been collected after all attributes. -/
noncomputable def collectedF (fl : ℝ → ℝ) (lib : Lib) (c : Collected) (attrs : List Attr) : Option Collected :=
  ((texts "transform" attrs).mapM (parseTransformF fl lib)).bind fun ts =>
  ((texts "viewBox" attrs).mapM parseViewBox).map fun boxes =>
    ⟨ts.foldl (tmul fl) c.transform, (texts "d" attrs).getLast?.or c.d, boxes.getLast?.or c.viewBox,
      (texts "width" attrs).getLast?.or c.width, (texts "height" attrs).getLast?.or c.height⟩

theorem foldlM_collectF (attrs : List Attr) (c : Collected) :
    attrs.foldlM (collectF fl lib) c = collectedF fl lib c attrs := by
  induction attrs generalizing c with
  | nil => simp [collectedF, texts]
  | cons a attrs ih =>
    rw [List.foldlM_cons]
    simp only [ih]
    unfold collectF
    by_cases h1 : a.name.local = "transform"
    · simp only [h1, if_true]
      cases hp : parseTransformF fl lib a.value with
      | none => simp [collectedF, texts_cons, h1, hp]
      | some t =>
        simp only [Option.map_some, Option.bind_eq_bind, Option.bind_some]
        simp only [collectedF, texts_cons, h1, if_true, List.mapM_cons, hp, Option.bind_eq_bind, Option.bind_some,
          String.reduceEq, if_false, Option.pure_def]
        cases (texts "transform" attrs).mapM (parseTransformF fl lib) <;> simp
    by_cases h2 : a.name.local = "d"
    · simp [h2, collectedF, texts_cons, getLast?_cons_or]
    by_cases h3 : a.name.local = "viewBox"
    · simp only [h3, if_true, String.reduceEq, if_false]
      cases hp : parseViewBox a.value with
      | none =>
        simp only [collectedF, texts_cons, h3, if_true, List.mapM_cons, hp]
        cases (texts "transform" attrs).mapM (parseTransformF fl lib) <;> simp
      | some v =>
        simp only [Option.map_some, Option.bind_eq_bind, Option.bind_some]
        simp only [collectedF, texts_cons, h3, if_true, List.mapM_cons, hp, Option.bind_eq_bind, Option.bind_some,
          String.reduceEq, if_false, Option.pure_def]
        cases (texts "transform" attrs).mapM (parseTransformF fl lib) with
        | none => simp
        | some ts =>
          cases (texts "viewBox" attrs).mapM parseViewBox <;> simp [getLast?_cons_or]
    by_cases h4 : a.name.local = "height"
    · simp [h4, collectedF, texts_cons, getLast?_cons_or]
    by_cases h5 : a.name.local = "width"
    · simp [h5, collectedF, texts_cons, getLast?_cons_or]
    · simp [h1, h2, h3, h4, h5, collectedF, texts_cons]

theorem docStepF_path (keep : Filter) (name : Name) (attrs : List Attr) (stack : List Transform) (t t' : Transform) (s s' : PathState)
    (d : List Char) (hk : keep name attrs) (hn : name.ns = some svgNs) (hi : insideF fl lib t name attrs = some t')
    (hp : name.local = "path") (hd : (texts "d" attrs).getLast? = some d) (hs : parsePathF fl lib d t' s = some (.done (.ok ()) s')) :
    docStepF fl lib keep ⟨0, stack, t, s⟩ (.start name attrs) = some (.inr ⟨0, t :: stack, t', s'⟩) := by
  simp only [docStepF, hk, hn, gt_iff_lt, lt_self_iff_false, decide_false, Bool.not_true, Bool.or_self,
    Bool.false_eq_true, if_false, if_true, collectAllF, foldlM_collectF]
  unfold insideF at hi
  unfold collectedF
  simp only [Option.bind_eq_some_iff] at hi
  obtain ⟨ts, e1, boxes, e2, hi⟩ := hi
  simp only [hp, String.reduceEq, if_false, Option.some.injEq] at hi
  subst hi
  simp only [e1, e2, Option.bind_some, Option.map_some, hp, if_true, hd, Option.or_none, hs]

theorem docStepF_other (keep : Filter) (name : Name) (attrs : List Attr) (stack : List Transform) (t t' : Transform) (s : PathState)
    (hk : keep name attrs) (hn : name.ns = some svgNs) (hi : insideF fl lib t name attrs = some t') (hp : name.local ≠ "path") :
    docStepF fl lib keep ⟨0, stack, t, s⟩ (.start name attrs) = some (.inr ⟨0, t :: stack, t', s⟩) := by
  simp only [docStepF, hk, hn, gt_iff_lt, lt_self_iff_false, decide_false, Bool.not_true, Bool.or_self,
    Bool.false_eq_true, if_false, if_true, collectAllF, foldlM_collectF]
  unfold insideF at hi
  unfold collectedF
  simp only [Option.bind_eq_some_iff] at hi
  obtain ⟨ts, e1, boxes, e2, hi⟩ := hi
  simp only [e1, e2, Option.bind_some, Option.map_some, hp, if_false, Option.or_none]
  split at hi
  · rename_i hs
    simp only [hs, if_true]
    simp only [Option.bind_eq_some_iff, Option.map_eq_some_iff] at hi
    obtain ⟨w, ⟨wt, hw, hw'⟩, v, ⟨vt, hv, hv'⟩, hi⟩ := hi
    unfold viewScaleF
    simp only [hw, hv, hw', hv', Option.bind_some, Option.map_some]
    rcases hb : boxes.getLast? with _ | ⟨x, y, vw, vh⟩
    · rw [hb] at hi; simp only at hi; simp [hi, Transform.scaleXy]
    · rw [hb] at hi; simp only at hi; simp [hi, Transform.scaleXy]
  · rename_i hs
    cases hi
    simp [hs]

/-- Nothing is done inside of an element that is left out. -/
theorem docLoopF_ignored (keep : Filter) (f : Forest) (es : List XmlEvent) (k : ℕ) (stack : List Transform)
    (t : Transform) (s : PathState) :
    docLoopF fl lib keep (f.events ++ es) ⟨k + 1, stack, t, s⟩ = docLoopF fl lib keep es ⟨k + 1, stack, t, s⟩ := by
  induction f generalizing k es with
  | nil => rfl
  | other rest ih => simpa [Forest.events, docLoopF, docStepF] using ih es k
  | elem name attrs kids rest ihk ihr =>
    have e : (Forest.elem name attrs kids rest).events ++ es =
        .start name attrs :: (kids.events ++ (.finish name :: (rest.events ++ es))) := by
      simp [Forest.events]
    rw [e, docLoopF]
    simp only [docStepF, gt_iff_lt, Nat.zero_lt_succ, decide_true, Bool.true_or, if_true]
    rw [ihk, docLoopF]
    simp only [docStepF, gt_iff_lt, Nat.zero_lt_succ, if_true, Nat.add_sub_cancel]
    exact ihr es k

/-- What a list of paths does, if there is no fault. -/
noncomputable def runPathsF (fl : ℝ → ℝ) (lib : Lib) : List (Transform × List Char) → PathState → Option PathState
  | [], s => some s
  | (t, d) :: l, s =>
    match parsePathF fl lib d t s with
    | some (.done (.ok ()) s') => runPathsF fl lib l s'
    | _ => none

theorem runPathsF_append (l l' : List (Transform × List Char)) (s : PathState) :
    runPathsF fl lib (l ++ l') s = (runPathsF fl lib l s).bind (runPathsF fl lib l') := by
  induction l generalizing s with
  | nil => rfl
  | cons x l ih =>
    obtain ⟨t, d⟩ := x
    simp only [List.cons_append, runPathsF]
    rcases parsePathF fl lib d t s with _ | _ | ⟨_ | _, s'⟩
    · rfl
    · rfl
    · rfl
    · exact ih s'

/-- The loop over the events of a list of nodes. -/
theorem docLoopF_forest (keep : Filter) (f : Forest) (es : List XmlEvent) (stack : List Transform)
    (t : Transform) (s s' : PathState) (l : List (Transform × List Char)) (h : pathsF fl lib keep t f = some l)
    (hr : runPathsF fl lib l s = some s') :
    docLoopF fl lib keep (f.events ++ es) ⟨0, stack, t, s⟩ = docLoopF fl lib keep es ⟨0, stack, t, s'⟩ := by
  induction f generalizing es stack t s s' l with
  | nil => cases h; cases hr; rfl
  | other rest ih => simpa [Forest.events, docLoopF, docStepF] using ih es stack t s s' l h hr
  | elem name attrs kids rest ihk ihr =>
    have e : (Forest.elem name attrs kids rest).events ++ es =
        .start name attrs :: (kids.events ++ (.finish name :: (rest.events ++ es))) := by
      simp [Forest.events]
    unfold pathsF at h
    simp only [Option.bind_eq_some_iff, Option.map_eq_some_iff] at h
    obtain ⟨l1, h1, l2, h2, rfl⟩ := h
    rw [runPathsF_append, Option.bind_eq_some_iff] at hr
    obtain ⟨s1, hr1, hr2⟩ := hr
    rw [e, docLoopF]
    split at h1
    · rename_i hk
      split at h1
      · rename_i hns
        have hn : name.ns = some svgNs := hns
        simp only [Option.bind_eq_some_iff] at h1
        obtain ⟨t', hi, h1⟩ := h1
        split at h1
        · rename_i hp
          simp only [Option.bind_eq_some_iff, Option.map_eq_some_iff] at h1
          obtain ⟨d, hd, l3, h3, rfl⟩ := h1
          simp only [runPathsF] at hr1
          rcases hq : parsePathF fl lib d t' s with _ | _ | ⟨_ | _, s2⟩
          · rw [hq] at hr1; cases hr1
          · rw [hq] at hr1; cases hr1
          · rw [hq] at hr1; cases hr1
          · rw [hq] at hr1
            simp only at hr1
            rw [docStepF_path keep name attrs stack t t' s s2 d hk hn hi hp hd hq]
            simp only
            rw [ihk _ _ _ _ _ _ h3 hr1, docLoopF]
            simp only [docStepF, gt_iff_lt, lt_self_iff_false, if_false, hn, if_true]
            exact ihr _ _ _ _ _ _ h2 hr2
        · rename_i hp
          rw [docStepF_other keep name attrs stack t t' s hk hn hi hp]
          simp only
          rw [ihk _ _ _ _ _ _ h1 hr1, docLoopF]
          simp only [docStepF, gt_iff_lt, lt_self_iff_false, if_false, hn, if_true]
          exact ihr _ _ _ _ _ _ h2 hr2
      · rename_i hns
        have hn : ¬ name.ns = some svgNs := hns
        simp only [docStepF, hk, hn, gt_iff_lt, lt_self_iff_false, decide_false, Bool.not_true, Bool.or_self,
          Bool.false_eq_true, if_false]
        rw [ihk _ _ _ _ _ _ h1 hr1, docLoopF]
        simp only [docStepF, gt_iff_lt, lt_self_iff_false, if_false, hn]
        exact ihr _ _ _ _ _ _ h2 hr2
    · rename_i hk
      cases h1
      cases hr1
      simp only [docStepF, hk, gt_iff_lt, lt_self_iff_false, decide_false, Bool.not_false, Bool.or_true, if_true]
      rw [docLoopF_ignored, docLoopF]
      simp only [docStepF, gt_iff_lt, Nat.zero_lt_succ, if_true, Nat.add_sub_cancel]
      exact ihr _ _ _ _ _ _ h2 hr2

theorem parseDocumentF_ok (keep : Filter) (f : Forest) (t : Transform) (s' : PathState) (l : List (Transform × List Char))
    (h : pathsF fl lib keep t f = some l) (hr : runPathsF fl lib l .new = some s') :
    parseDocumentF fl lib keep t f.events = some (.ok s'.segs) := by
  have := docLoopF_forest keep f [] [] t .new s' l h hr
  rw [List.append_nil] at this
  rw [parseDocumentF, this]
  rfl

/-! ### Paths -/

/-- `buildAll` with rounding. -/
noncomputable def buildAllF (fl : ℝ → ℝ) (lib : Lib) (tr : Transform) : Bool → List (Char × List ℝ) → PathState → Option Built
  | _, [], s => some (.ok (), s)
  | first, (cmd, args) :: rest, s =>
    match buildPathF fl lib cmd args tr first s with
    | none => none
    | some (.error e, s) => some (.error e, s)
    | some (.ok (), s) => buildAllF fl lib tr false rest s

theorem pathLoopF_trim (tr : Transform) (first : Bool) {t t' : List Char} (h : t.dropWhile isWhite = t'.dropWhile isWhite)
    {s : PathState} : pathLoopF fl lib tr first t s = pathLoopF fl lib tr first t' s := by
  rw [pathLoopF, h]
  conv => rhs; rw [pathLoopF]

/-- A path that is written out is built from its commands. -/
theorem pathLoopF_cmds (tr : Transform) (cmds : List Cmd) (hc : ∀ c ∈ cmds, c.Valid) {t : List Char} (ht : White t) :
    ∀ (first : Bool) (s s' : PathState) {r : Except BuildError Unit},
    buildAllF fl lib tr first (cmds.map fun c => (c.letter, c.args.values.map fun q : ℚ => fl (q : ℝ))) s = some (r, s') →
    pathLoopF fl lib tr first (pathText cmds ++ t) s = some (.done r s') := by
  have hend : t.dropWhile isWhite = [] := by
    have := (takeWhile_run (r := []) (white_iff.1 ht) (by simp [NoHead])).2
    simpa using this
  have hle0 : CmdEnd t := by unfold CmdEnd; rw [hend]; simp [NoHead]
  induction cmds with
  | nil =>
    intro first s s' r h
    cases h
    rw [pathLoopF]
    simp [pathText, hend]
  | cons c cmds ih =>
    intro first s s' r h
    have hv := hc c (by simp)
    have hcs : ∀ c ∈ cmds, c.Valid := fun c hc' => hc c (by simp [hc'])
    have hsplit : pathText (c :: cmds) ++ t =
        c.lead ++ (c.letter :: (c.args.text ++ (pathText cmds ++ t))) := by
      simp [pathText, Cmd.text]
    have hle : ArgsEnd (pathText cmds ++ t) c.args := by
      match cmds with
      | [] => exact hle0.argsEnd c.args
      | d :: cmds =>
        have hd := hcs d (by simp)
        have : CmdEnd (pathText (d :: cmds) ++ t) := by
          have e : pathText (d :: cmds) ++ t =
              d.lead ++ (d.letter :: (d.args.text ++ (pathText cmds ++ t))) := by
            simp [pathText, Cmd.text]
          unfold CmdEnd
          rw [e, (takeWhile_run (white_iff.1 hd.lead) (noHead_cons.2 (letter_facts hd.letter).2.2.2.2.2.2.1)).2]
          exact noHead_cons.2 (by simp [hd.letter])
        exact this.argsEnd c.args
    obtain ⟨r', hp, hr'⟩ := pathCommand_text c.letter hv.letter c.args hv.args hle
    rw [hsplit, pathLoopF,
      (takeWhile_run (white_iff.1 hv.lead) (noHead_cons.2 (letter_facts hv.letter).2.2.2.2.2.2.1)).2, hp]
    simp only [reduceCtorEq, if_false, List.map_cons, buildAllF] at h ⊢
    cases hb : buildPathF fl lib c.letter (c.args.values.map fun q : ℚ => fl (q : ℝ)) tr first s with
    | none => rw [hb] at h; cases h
    | some v =>
      obtain ⟨_ | _, s1⟩ := v
      · rw [hb] at h; cases h; rfl
      · rw [hb] at h
        simp only at h ⊢
        rw [pathLoopF_trim tr false hr']
        exact ih hcs false s1 s' h

end StepperPaths.Rounded.Acc
