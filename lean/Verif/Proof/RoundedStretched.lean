import Verif.Proof.RoundedEllipse
import Verif.Proof.RoundedDoc

/-!
What is in the path of a document that is read with rounding: nothing is lost, and a circle whose axes are scaled differently leaves an
arc with half axes that are not equal.
-/

namespace StepperPaths.Rounded.Acc
open Spec Coords Draw StepperPaths.Svg Spec.Svg

variable {fl : ℝ → ℝ} {lib : Lib}

/-! ### Segments stay -/

theorem push_memF {s : PathState} {seg seg' : Seg} (h : seg ∈ s.segs) : seg ∈ (s.push seg').segs := by
  simp [PathState.push, h]

theorem lineLoopF_mem (seg : Seg) (rel : Bool) (tr : Transform) (args : List ℝ) (s : PathState) (h : seg ∈ s.segs) :
    seg ∈ (lineLoopF fl rel tr args s).segs := by
  fun_induction lineLoopF fl rel tr args s with
  | case1 _ _ _ _ _ ih => exact ih (push_memF h)
  | case2 => exact h

theorem vertLoopF_mem (seg : Seg) (rel : Bool) (tr : Transform) (args : List ℝ) (s : PathState) (h : seg ∈ s.segs) :
    seg ∈ (vertLoopF fl rel tr args s).segs := by
  fun_induction vertLoopF fl rel tr args s with
  | case1 _ _ _ _ ih => exact ih (push_memF h)
  | case2 => exact h

theorem horLoopF_mem (seg : Seg) (rel : Bool) (tr : Transform) (args : List ℝ) (s : PathState) (h : seg ∈ s.segs) :
    seg ∈ (horLoopF fl rel tr args s).segs := by
  fun_induction horLoopF fl rel tr args s with
  | case1 _ _ _ _ ih => exact ih (push_memF h)
  | case2 => exact h

theorem cubicLoopF_mem (seg : Seg) (rel : Bool) (tr : Transform) (args : List ℝ) (s : PathState) (h : seg ∈ s.segs) :
    seg ∈ (cubicLoopF fl rel tr args s).segs := by
  fun_induction cubicLoopF fl rel tr args s with
  | case1 _ _ _ _ _ _ _ _ _ _ _ _ _ ih => exact ih (push_memF h)
  | case2 => exact h

theorem quadLoopF_mem (seg : Seg) (rel : Bool) (tr : Transform) (args : List ℝ) (s : PathState) (h : seg ∈ s.segs) :
    seg ∈ (quadLoopF fl rel tr args s).segs := by
  fun_induction quadLoopF fl rel tr args s with
  | case1 _ _ _ _ _ _ _ _ _ _ _ ih => exact ih (push_memF h)
  | case2 => exact h

theorem arcLoopF_mem (seg : Seg) (rel : Bool) (tr : Transform) (args : List ℝ) (s s' : PathState) (h : seg ∈ s.segs)
    (hr : arcLoopF fl lib rel tr args s = some (.ok (), s')) : seg ∈ s'.segs := by
  fun_induction arcLoopF fl lib rel tr args s with
  | case1 => simp at hr
  | case2 => simp at hr
  | case3 _ _ _ _ _ _ _ _ _ _ _ _ _ ih => exact ih (by exact push_memF h) hr
  | case4 => cases hr; exact h

theorem check_okF {n : ℕ} {args : List ℝ} {s s' : PathState} {b : Option Built} (h : checkArgs n args s b = some (.ok (), s')) :
    b = some (.ok (), s') := by
  unfold checkArgs at h
  split at h
  · simp at h
  · split at h
    · simp at h
    · exact h

theorem moveF_mem (seg : Seg) (rel first : Bool) (tr : Transform) (args : List ℝ) (s : PathState) (h : seg ∈ s.segs) :
    seg ∈ (moveCmdF fl rel first tr args s).segs := by
  unfold moveCmdF
  split
  · exact lineLoopF_mem _ _ _ _ _ (push_memF h)
  · exact h

theorem buildPathF_mem (seg : Seg) {cmd : Char} {args : List ℝ} {tr : Transform} {first : Bool} {s s' : PathState} (h : seg ∈ s.segs)
    (hr : buildPathF fl lib cmd args tr first s = some (.ok (), s')) : seg ∈ s'.segs := by
  unfold buildPathF at hr
  split at hr <;> try have hr := check_okF hr
  all_goals first
    | (cases hr; exact moveF_mem _ _ _ _ _ _ h)
    | (cases hr; exact lineLoopF_mem _ _ _ _ _ h)
    | (cases hr; exact vertLoopF_mem _ _ _ _ _ h)
    | (cases hr; exact horLoopF_mem _ _ _ _ _ h)
    | (cases hr; exact cubicLoopF_mem _ _ _ _ _ h)
    | (cases hr; exact quadLoopF_mem _ _ _ _ _ h)
    | (exact arcLoopF_mem _ _ _ _ _ _ h hr)
    | (cases hr; exact push_memF h)
    | (simp at hr)

theorem buildAllF_mem (seg : Seg) {tr : Transform} : ∀ {cmds : List (Char × List ℝ)} {first : Bool} {s s' : PathState}, seg ∈ s.segs →
    buildAllF fl lib tr first cmds s = some (.ok (), s') → seg ∈ s'.segs
  | [], _, _, _, h, hr => by cases hr; exact h
  | (cmd, args) :: rest, first, s, s', h, hr => by
    rw [buildAllF] at hr
    split at hr
    · simp at hr
    · simp at hr
    · next h1 => exact buildAllF_mem seg (buildPathF_mem seg h h1) hr

theorem pathLoopF_mem (seg : Seg) (tr : Transform) (first : Bool) (text : List Char) (s : PathState) (o : Outcome)
    (h : pathLoopF fl lib tr first text s = some o) (hs : seg ∈ s.segs) : ∀ s', o = .done (.ok ()) s' → seg ∈ s'.segs := by
  revert hs
  refine pathLoopF.partial_correctness fl lib tr (fun _ _ s o => seg ∈ s.segs → ∀ s', o = .done (.ok ()) s' → seg ∈ s'.segs) ?_ first text s o h
  intro loop ih first text s o h hs s' ho
  subst ho
  simp only at h
  split at h
  · cases h; exact hs
  · split at h
    · simp at h
    · split at h
      · simp at h
      · simp at h
      · next h1 => exact ih _ _ _ _ h (buildPathF_mem seg hs h1) _ rfl

theorem runPathsF_mem (seg : Seg) : ∀ {l : List (Transform × List Char)} {s s' : PathState}, seg ∈ s.segs →
    runPathsF fl lib l s = some s' → seg ∈ s'.segs
  | [], _, _, hs, h => by cases h; exact hs
  | (t, d) :: l, s, s', hs, h => by
    rw [runPathsF] at h
    split at h
    · next h1 => exact runPathsF_mem seg (pathLoopF_mem seg _ _ _ _ _ h1 hs _ rfl) h
    · simp at h

/-! ### Faults -/

/-- A path with a command that fails fails. -/
theorem pathLoopF_cmds_none (tr : Transform) (cmds : List Cmd) (hc : ∀ c ∈ cmds, c.Valid) {t : List Char} (ht : White t) :
    ∀ (first : Bool) (s : PathState),
    buildAllF fl lib tr first (cmds.map fun c => (c.letter, c.args.values.map fun q : ℚ => fl (q : ℝ))) s = none →
    pathLoopF fl lib tr first (pathText cmds ++ t) s = some .panic := by
  have hend : t.dropWhile isWhite = [] := by
    have := (takeWhile_run (r := []) (white_iff.1 ht) (by simp [NoHead])).2
    simpa using this
  have hle0 : CmdEnd t := by unfold CmdEnd; rw [hend]; simp [NoHead]
  induction cmds with
  | nil =>
    intro first s h
    cases h
  | cons c cmds ih =>
    intro first s h
    have hv := hc c (by simp)
    have hcs : ∀ c ∈ cmds, c.Valid := fun c hc' => hc c (by simp [hc'])
    have hsplit : pathText (c :: cmds) ++ t =
        c.lead ++ (c.letter :: (c.args.text ++ (pathText cmds ++ t))) := by
      simp [pathText, Cmd.text]
    have hle : ArgsEnd (pathText cmds ++ t) c.args := by
      match cmds with
      | [] => exact hle0.argsEnd c.args
      | d :: cmds =>
        have hd := hcs d (by simp)
        have : CmdEnd (pathText (d :: cmds) ++ t) := by
          have e : pathText (d :: cmds) ++ t =
              d.lead ++ (d.letter :: (d.args.text ++ (pathText cmds ++ t))) := by
            simp [pathText, Cmd.text]
          unfold CmdEnd
          rw [e, (takeWhile_run (white_iff.1 hd.lead) (noHead_cons.2 (letter_facts hd.letter).2.2.2.2.2.2.1)).2]
          exact noHead_cons.2 (by simp [hd.letter])
        exact this.argsEnd c.args
    obtain ⟨r', hp, hr'⟩ := pathCommand_text c.letter hv.letter c.args hv.args hle
    rw [hsplit, pathLoopF,
      (takeWhile_run (white_iff.1 hv.lead) (noHead_cons.2 (letter_facts hv.letter).2.2.2.2.2.2.1)).2, hp]
    simp only [reduceCtorEq, if_false, List.map_cons, buildAllF] at h ⊢
    cases hb : buildPathF fl lib c.letter (c.args.values.map fun q : ℚ => fl (q : ℝ)) tr first s with
    | none => rfl
    | some v =>
      obtain ⟨_ | _, s1⟩ := v
      · rw [hb] at h; cases h
      · rw [hb] at h
        simp only at h ⊢
        rw [pathLoopF_trim tr false hr']
        exact ih hcs false s1 h

/-- A document with a path that fails is not read. -/
theorem docStepF_path_bad (keep : Filter) (name : Name) (attrs : List Attr) (stack : List Transform) (t t' : Transform) (s : PathState) (d : List Char)
    (hk : keep name attrs) (hn : name.ns = some svgNs) (hi : insideF fl lib t name attrs = some t') (hp : name.local = "path")
    (hd : (texts "d" attrs).getLast? = some d) (hs : ∀ s', parsePathF fl lib d t' s ≠ some (.done (.ok ()) s')) :
    docStepF fl lib keep ⟨0, stack, t, s⟩ (.start name attrs) = none ∨
    docStepF fl lib keep ⟨0, stack, t, s⟩ (.start name attrs) = some (.inl .panic) ∨
    docStepF fl lib keep ⟨0, stack, t, s⟩ (.start name attrs) = some (.inl .err) := by
  simp only [docStepF, hk, hn, gt_iff_lt, lt_self_iff_false, decide_false, Bool.not_true, Bool.or_self,
    Bool.false_eq_true, if_false, if_true, collectAllF, foldlM_collectF]
  unfold insideF at hi
  unfold collectedF
  simp only [Option.bind_eq_some_iff] at hi
  obtain ⟨ts, e1, boxes, e2, hi⟩ := hi
  simp only [hp, String.reduceEq, if_false, Option.some.injEq] at hi
  subst hi
  simp only [e1, e2, Option.bind_some, Option.map_some, hp, if_true, hd, Option.or_none]
  rcases hq : parsePathF fl lib d (ts.foldl (tmul fl) t) s with _ | _ | ⟨_ | _, s2⟩
  · simp
  · simp
  · simp
  · exact absurd hq (hs s2)

theorem docLoopF_bad (keep : Filter) (f : Forest) (es : List XmlEvent) (stack : List Transform)
    (t : Transform) (s : PathState) (l : List (Transform × List Char)) (h : pathsF fl lib keep t f = some l)
    (hr : runPathsF fl lib l s = none) (segs : List Seg) :
    docLoopF fl lib keep (f.events ++ es) ⟨0, stack, t, s⟩ ≠ some (.ok segs) := by
  induction f generalizing es stack t s l with
  | nil => cases h; cases hr
  | other rest ih => simpa [Forest.events, docLoopF, docStepF] using ih es stack t s l h hr
  | elem name attrs kids rest ihk ihr =>
    have e : (Forest.elem name attrs kids rest).events ++ es =
        .start name attrs :: (kids.events ++ (.finish name :: (rest.events ++ es))) := by
      simp [Forest.events]
    unfold pathsF at h
    simp only [Option.bind_eq_some_iff, Option.map_eq_some_iff] at h
    obtain ⟨l1, h1, l2, h2, rfl⟩ := h
    rw [runPathsF_append, Option.bind_eq_none_iff] at hr
    rw [e, docLoopF]
    split at h1
    · rename_i hk
      split at h1
      · rename_i hns
        have hn : name.ns = some svgNs := hns
        simp only [Option.bind_eq_some_iff] at h1
        obtain ⟨t', hi, h1⟩ := h1
        split at h1
        · rename_i hp
          simp only [Option.bind_eq_some_iff, Option.map_eq_some_iff] at h1
          obtain ⟨d, hd, l3, h3, rfl⟩ := h1
          by_cases hq : ∃ s2, parsePathF fl lib d t' s = some (.done (.ok ()) s2)
          · obtain ⟨s2, hq⟩ := hq
            simp only [runPathsF, hq] at hr
            rw [docStepF_path keep name attrs stack t t' s s2 d hk hn hi hp hd hq]
            simp only
            cases hr3 : runPathsF fl lib l3 s2 with
            | none => exact ihk _ _ _ _ _ h3 hr3
            | some s3 =>
              rw [docLoopF_forest keep kids _ _ _ _ _ _ h3 hr3, docLoopF]
              simp only [docStepF, gt_iff_lt, lt_self_iff_false, if_false, hn, if_true]
              exact ihr _ _ _ _ _ h2 (hr s3 hr3)
          · rcases docStepF_path_bad keep name attrs stack t t' s d hk hn hi hp hd (not_exists.1 hq) with h | h | h <;> rw [h] <;> simp
        · rename_i hp
          rw [docStepF_other keep name attrs stack t t' s hk hn hi hp]
          simp only
          cases hr3 : runPathsF fl lib l1 s with
          | none => exact ihk _ _ _ _ _ h1 hr3
          | some s3 =>
            rw [docLoopF_forest keep kids _ _ _ _ _ _ h1 hr3, docLoopF]
            simp only [docStepF, gt_iff_lt, lt_self_iff_false, if_false, hn, if_true]
            exact ihr _ _ _ _ _ h2 (hr s3 hr3)
      · rename_i hns
        have hn : ¬ name.ns = some svgNs := hns
        simp only [docStepF, hk, hn, gt_iff_lt, lt_self_iff_false, decide_false, Bool.not_true, Bool.or_self,
          Bool.false_eq_true, if_false]
        cases hr3 : runPathsF fl lib l1 s with
        | none => exact ihk _ _ _ _ _ h1 hr3
        | some s3 =>
          rw [docLoopF_forest keep kids _ _ _ _ _ _ h1 hr3, docLoopF]
          simp only [docStepF, gt_iff_lt, lt_self_iff_false, if_false, hn]
          exact ihr _ _ _ _ _ h2 (hr s3 hr3)
    · rename_i hk
      cases h1
      simp only [docStepF, hk, gt_iff_lt, lt_self_iff_false, decide_false, Bool.not_false, Bool.or_true, if_true]
      rw [docLoopF_ignored, docLoopF]
      simp only [docStepF, gt_iff_lt, Nat.zero_lt_succ, if_true, Nat.add_sub_cancel]
      exact ihr _ _ _ _ _ h2 (hr s rfl)

theorem parseDocumentF_paths (keep : Filter) (f : Forest) (t : Transform) (l : List (Transform × List Char)) (segs : List Seg)
    (h : pathsF fl lib keep t f = some l) (hr : parseDocumentF fl lib keep t f.events = some (.ok segs)) :
    ∃ s', runPathsF fl lib l .new = some s' ∧ s'.segs = segs := by
  cases hs : runPathsF fl lib l .new with
  | none =>
    have := docLoopF_bad keep f [] [] t .new l h hs segs
    rw [List.append_nil] at this
    exact absurd hr this
  | some s' =>
    rw [parseDocumentF_ok keep f t s' l h hs] at hr
    simp only [Option.some.injEq, DocResult.ok.injEq] at hr
    exact ⟨s', rfl, hr⟩

end StepperPaths.Rounded.Acc
