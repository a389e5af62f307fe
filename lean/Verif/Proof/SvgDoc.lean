import Verif.Spec.SvgDoc
import Verif.Props.SvgPath
import Verif.Proof.SvgText

/-! Lemmas about the loop over a document. -/

namespace StepperPaths.Svg
open Spec.Svg Draw Coords

/-! ### Attributes -/

theorem texts_cons (key : String) (a : Attr) (attrs : List Attr) :
    texts key (a :: attrs) = if a.name.local = key then a.value :: texts key attrs else texts key attrs := by
  by_cases h : a.name.local = key <;> simp [texts, h]

/-- What has been collected after all attributes. -/
noncomputable def collected (c : Collected) (attrs : List Attr) : Option Collected :=
  ((texts "transform" attrs).mapM parseTransform).bind fun ts =>
  ((texts "viewBox" attrs).mapM parseViewBox).map fun boxes =>
    ⟨ts.foldl (· * ·) c.transform, (texts "d" attrs).getLast?.or c.d, boxes.getLast?.or c.viewBox,
      (texts "width" attrs).getLast?.or c.width, (texts "height" attrs).getLast?.or c.height⟩

theorem getLast?_cons_or {α : Type} (a : α) (l : List α) (o : Option α) :
    (a :: l).getLast?.or o = l.getLast?.or (some a) := by
  rw [List.getLast?_cons]
  cases l.getLast? <;> rfl

theorem foldlM_collect (attrs : List Attr) (c : Collected) :
    attrs.foldlM collect c = collected c attrs := by
  induction attrs generalizing c with
  | nil => simp [collected, texts]
  | cons a attrs ih =>
    rw [List.foldlM_cons]
    simp only [ih]
    unfold collect
    by_cases h1 : a.name.local = "transform"
    · simp only [h1, if_true]
      cases hp : parseTransform a.value with
      | none => simp [collected, texts_cons, h1, hp]
      | some t =>
        simp only [Option.map_some, Option.bind_eq_bind, Option.bind_some]
        simp only [collected, texts_cons, h1, if_true, List.mapM_cons, hp, Option.bind_eq_bind, Option.bind_some,
          String.reduceEq, if_false, Option.pure_def]
        cases (texts "transform" attrs).mapM parseTransform <;> simp
    by_cases h2 : a.name.local = "d"
    · simp [h2, collected, texts_cons, getLast?_cons_or]
    by_cases h3 : a.name.local = "viewBox"
    · simp only [h3, if_true, String.reduceEq, if_false]
      cases hp : parseViewBox a.value with
      | none =>
        simp only [collected, texts_cons, h3, if_true, List.mapM_cons, hp]
        cases (texts "transform" attrs).mapM parseTransform <;> simp
      | some v =>
        simp only [Option.map_some, Option.bind_eq_bind, Option.bind_some]
        simp only [collected, texts_cons, h3, if_true, List.mapM_cons, hp, Option.bind_eq_bind, Option.bind_some,
          String.reduceEq, if_false, Option.pure_def]
        cases (texts "transform" attrs).mapM parseTransform with
        | none => simp
        | some ts =>
          cases (texts "viewBox" attrs).mapM parseViewBox <;> simp [getLast?_cons_or]
    by_cases h4 : a.name.local = "height"
    · simp [h4, collected, texts_cons, getLast?_cons_or]
    by_cases h5 : a.name.local = "width"
    · simp [h5, collected, texts_cons, getLast?_cons_or]
    · simp [h1, h2, h3, h4, h5, collected, texts_cons]

/-! ### Elements -/

/-- What happens inside of an element before its children. -/
inductive Entered
  | err
  | panic
  | into (t : Transform) (s : PathState)

/-- Go on after an element. -/
def Entered.next (e : Entered) (k : PathState → Entered) : Entered :=
  match e with
  | .into _ s => k s
  | .err => .err
  | .panic => .panic

noncomputable def enter (t : Transform) (name : Name) (attrs : List Attr) (s : PathState) : Entered :=
  match inside t name attrs with
  | none => .err
  | some t' =>
    if name.local = "path" then
      match (texts "d" attrs).getLast? with
      | none => .err
      | some d =>
        match parsePath d t' s with
        | some (.done (.ok ()) s') => .into t' s'
        | some (.done (.error _) _) => .err
        | _ => .panic
    else .into t' s

theorem docStep_start (keep : Filter) (name : Name) (attrs : List Attr) (st : DocState)
    (h0 : st.ignore = 0) (hk : keep name attrs) (hn : name.ns = some svgNs) :
    docStep keep st (.start name attrs) = some (match enter st.transform name attrs st.path with
      | .err => .inl .err
      | .panic => .inl .panic
      | .into t s => .inr ⟨0, st.transform :: st.stack, t, s⟩) := by
  obtain ⟨ignore, stack, t, s⟩ := st
  simp only at h0
  subst h0
  simp only [docStep, hk, hn, gt_iff_lt, lt_self_iff_false, decide_false, Bool.not_true, Bool.or_self,
    Bool.false_eq_true, if_false, if_true, collectAll, foldlM_collect]
  unfold enter inside collected
  cases (texts "transform" attrs).mapM parseTransform with
  | none => rfl
  | some ts =>
    cases (texts "viewBox" attrs).mapM parseViewBox with
    | none => rfl
    | some boxes =>
      simp only [Option.bind_some, Option.map_some, Option.or_none]
      by_cases hs : name.local = "svg"
      · simp only [hs, if_true, if_false, String.reduceEq]
        unfold viewScale
        cases (texts "width" attrs).getLast? with
        | none => simp
        | some w =>
          cases (texts "height" attrs).getLast? with
          | none => cases parseLength w <;> simp
          | some h =>
            simp only [Option.bind_some]
            cases parseLength w with
            | none => rfl
            | some w =>
              cases parseLength h with
              | none => rfl
              | some h =>
                rcases boxes.getLast? with _ | ⟨x, y, vw, vh⟩ <;> simp [Transform.scaleXy]
      · by_cases hp : name.local = "path"
        · simp only [hp, if_true, String.reduceEq, if_false]
          cases (texts "d" attrs).getLast? with
          | none => rfl
          | some d =>
            simp only
            obtain ⟨o, ho, -⟩ := pathLoop_sound (ts.foldl (· * ·) t) d true s
            have ho' : parsePath d (ts.foldl (· * ·) t) s = some o := ho
            rw [ho']
            rcases o with _ | ⟨_ | _, s'⟩ <;> rfl
        · simp [hs, hp]

/-- Nothing is done inside of an element that is left out. -/
theorem docLoop_ignored (keep : Filter) (f : Forest) (es : List XmlEvent) (k : ℕ) (stack : List Transform)
    (t : Transform) (s : PathState) :
    docLoop keep (f.events ++ es) ⟨k + 1, stack, t, s⟩ = docLoop keep es ⟨k + 1, stack, t, s⟩ := by
  induction f generalizing k es with
  | nil => rfl
  | other rest ih => simpa [Forest.events, docLoop, docStep] using ih es k
  | elem name attrs kids rest ihk ihr =>
    have e : (Forest.elem name attrs kids rest).events ++ es =
        .start name attrs :: (kids.events ++ (.finish name :: (rest.events ++ es))) := by
      simp [Forest.events]
    rw [e, docLoop]
    simp only [docStep, gt_iff_lt, Nat.zero_lt_succ, decide_true, Bool.true_or, if_true]
    rw [ihk, docLoop]
    simp only [docStep, gt_iff_lt, Nat.zero_lt_succ, if_true, Nat.add_sub_cancel]
    exact ihr es k

/-- What a list of nodes does. -/
noncomputable def draw (keep : Filter) : Forest → Transform → PathState → Entered
  | .nil, t, s => .into t s
  | .other rest, t, s => draw keep rest t s
  | .elem name attrs kids rest, t, s =>
    let own : Entered :=
      if keep name attrs then
        if name.ns = some svgNs then
          match enter t name attrs s with
          | .into t' s' => draw keep kids t' s'
          | e => e
        else draw keep kids t s
      else .into t s
    own.next fun s' => draw keep rest t s'

/-- The loop over the events of a list of nodes. -/
theorem docLoop_forest (keep : Filter) (f : Forest) (es : List XmlEvent) (stack : List Transform)
    (t : Transform) (s : PathState) :
    docLoop keep (f.events ++ es) ⟨0, stack, t, s⟩ =
      match draw keep f t s with
      | .into _ s' => docLoop keep es ⟨0, stack, t, s'⟩
      | .err => some .err
      | .panic => some .panic := by
  induction f generalizing es stack t s with
  | nil => rfl
  | other rest ih => simpa [Forest.events, docLoop, docStep, draw] using ih es stack t s
  | elem name attrs kids rest ihk ihr =>
    have e : (Forest.elem name attrs kids rest).events ++ es =
        .start name attrs :: (kids.events ++ (.finish name :: (rest.events ++ es))) := by
      simp [Forest.events]
    rw [e, docLoop]
    unfold draw
    by_cases hk : keep name attrs
    · by_cases hn : name.ns = some svgNs
      · rw [docStep_start keep name attrs _ rfl hk hn]
        simp only [hk, hn, if_true]
        cases he : enter t name attrs s with
        | err => rfl
        | panic => rfl
        | into t' s' =>
          simp only
          rw [ihk]
          cases draw keep kids t' s' with
          | err => rfl
          | panic => rfl
          | into t2 s2 =>
            simp only
            rw [docLoop]
            simp only [docStep, gt_iff_lt, lt_self_iff_false, if_false, hn, if_true]
            exact ihr es stack t s2
      · simp only [docStep, hk, hn, gt_iff_lt, lt_self_iff_false, decide_false, Bool.not_true, Bool.or_self,
          Bool.false_eq_true, if_false, if_true]
        rw [ihk]
        cases draw keep kids t s with
        | err => rfl
        | panic => rfl
        | into t2 s2 =>
          simp only
          rw [docLoop]
          simp only [docStep, gt_iff_lt, lt_self_iff_false, if_false, hn]
          exact ihr es stack t s2
    · simp only [docStep, hk, gt_iff_lt, lt_self_iff_false, decide_false, Bool.not_false, Bool.or_true,
        Bool.false_eq_true, if_false, if_true]
      rw [docLoop_ignored, docLoop]
      simp only [docStep, gt_iff_lt, Nat.zero_lt_succ, if_true, Nat.add_sub_cancel]
      exact ihr es stack t s

/-! ### Paths -/

/-- What a list of paths does. -/
noncomputable def runPaths : List (Transform × List Char) → PathState → Option PathState ⊕ Unit
  | [], s => .inl (some s)
  | (t, d) :: l, s =>
    match parsePath d t s with
    | some (.done (.ok ()) s') => runPaths l s'
    | some (.done (.error _) _) => .inl none
    | _ => .inr ()

theorem runPaths_append (l l' : List (Transform × List Char)) (s : PathState) :
    runPaths (l ++ l') s = match runPaths l s with
      | .inl (some s') => runPaths l' s'
      | r => r := by
  induction l generalizing s with
  | nil => rfl
  | cons x l ih =>
    obtain ⟨t, d⟩ := x
    simp only [List.cons_append, runPaths]
    rcases parsePath d t s with _ | _ | ⟨_ | _, s'⟩
    · rfl
    · rfl
    · rfl
    · exact ih s'

theorem drawPaths_eq (l : List (Transform × List Char)) (s : PathState) :
    drawPaths l s = match runPaths l s with
      | .inl (some s') => .ok s'.segs
      | .inl none => .err
      | .inr () => .panic := by
  induction l generalizing s with
  | nil => rfl
  | cons x l ih =>
    obtain ⟨t, d⟩ := x
    simp only [drawPaths, runPaths]
    rcases parsePath d t s with _ | _ | ⟨_ | _, s'⟩
    · rfl
    · rfl
    · rfl
    · exact ih s'

theorem draw_paths (keep : Filter) (f : Forest) (t : Transform) (l : List (Transform × List Char))
    (h : f.paths keep t = some l) (s : PathState) :
    match runPaths l s with
      | .inl (some s') => ∃ t', draw keep f t s = .into t' s'
      | .inl none => draw keep f t s = .err
      | .inr () => draw keep f t s = .panic := by
  induction f generalizing t l s with
  | nil => cases h; exact ⟨t, rfl⟩
  | other rest ih => exact ih t l h s
  | elem name attrs kids rest ihk ihr =>
    unfold Forest.paths at h
    simp only [Option.bind_eq_some_iff, Option.map_eq_some_iff] at h
    obtain ⟨l1, h1, l2, h2, rfl⟩ := h
    -- it is enough to look at the element itself
    have key : ∀ own : Entered, (match runPaths l1 s with
        | .inl (some s') => ∃ t', own = .into t' s'
        | .inl none => own = .err
        | .inr () => own = .panic) →
        (match runPaths (l1 ++ l2) s with
          | .inl (some s') => ∃ t', (own.next fun s' => draw keep rest t s') = .into t' s'
          | .inl none => (own.next fun s' => draw keep rest t s') = .err
          | .inr () => (own.next fun s' => draw keep rest t s') = .panic) := by
      intro own ho
      rw [runPaths_append]
      rcases hr : runPaths l1 s with (_ | s1) | _
      · rw [hr] at ho; simp only at ho ⊢; rw [ho]; rfl
      · rw [hr] at ho
        simp only at ho ⊢
        obtain ⟨t', rfl⟩ := ho
        exact ihr t l2 h2 s1
      · rw [hr] at ho; simp only at ho ⊢; rw [ho]; rfl
    unfold draw
    apply key
    split at h1
    · rename_i hk
      simp only [hk, if_true]
      split at h1
      · rename_i hn
        have hn' : name.ns = some svgNs := hn
        simp only [hn', if_true]
        simp only [Option.bind_eq_some_iff] at h1
        obtain ⟨t', hi, h1⟩ := h1
        unfold enter
        simp only [hi]
        split at h1
        · rename_i hp
          simp only [hp, if_true]
          simp only [Option.bind_eq_some_iff, Option.map_eq_some_iff] at h1
          obtain ⟨d, hd, l3, h3, rfl⟩ := h1
          simp only [hd, runPaths]
          rcases parsePath d t' s with _ | _ | ⟨_ | _, s'⟩
          · rfl
          · rfl
          · rfl
          · exact ihk t' l3 h3 s'
        · rename_i hp
          simp only [hp, if_false]
          exact ihk t' l1 h1 s
      · rename_i hn
        have hn' : ¬ name.ns = some svgNs := hn
        simp only [hn', if_false]
        exact ihk t l1 h1 s
    · rename_i hk
      simp only [hk]
      cases h1
      exact ⟨t, rfl⟩

/-- A faulty element is not passed over. -/
theorem draw_faulty (keep : Filter) (f : Forest) (t : Transform) (h : f.paths keep t = none)
    (s : PathState) : draw keep f t s = .err ∨ draw keep f t s = .panic := by
  induction f generalizing t s with
  | nil => cases h
  | other rest ih => exact ih t h s
  | elem name attrs kids rest ihk ihr =>
    unfold Forest.paths at h
    unfold draw
    have key : ∀ own : Entered, own = .err ∨ own = .panic →
        (own.next fun s' => draw keep rest t s') = .err ∨
        (own.next fun s' => draw keep rest t s') = .panic := by
      rintro own (rfl | rfl)
      · exact .inl rfl
      · exact .inr rfl
    have rest' : ∀ own : Entered, rest.paths keep t = none →
        (own.next fun s' => draw keep rest t s') = .err ∨
        (own.next fun s' => draw keep rest t s') = .panic := by
      intro own hr
      cases own with
      | err => exact .inl rfl
      | panic => exact .inr rfl
      | into t' s' => exact ihr t hr s'
    simp only [Option.bind_eq_none_iff, Option.map_eq_none_iff] at h
    by_cases hr : rest.paths keep t = none
    · exact rest' _ hr
    refine key _ ?_
    split at h
    · rename_i hk
      simp only [hk, if_true]
      split at h
      · rename_i hn
        have hn' : name.ns = some svgNs := hn
        simp only [hn', if_true]
        unfold enter
        cases hi : inside t name attrs with
        | none => exact .inl rfl
        | some t' =>
          simp only [hi, Option.bind_some] at h ⊢
          split at h
          · rename_i hp
            simp only [hp, if_true]
            cases hd : (texts "d" attrs).getLast? with
            | none => exact .inl rfl
            | some d =>
              simp only [hd, Option.bind_some] at h ⊢
              rcases parsePath d t' s with _ | _ | ⟨_ | _, s'⟩
              · exact .inr rfl
              · exact .inr rfl
              · exact .inl rfl
              · refine ihk t' ?_ s'
                by_contra hne
                obtain ⟨l, hl⟩ := Option.ne_none_iff_exists'.1 hne
                exact hr (h _ (by rw [hl]; rfl))
          · rename_i hp
            simp only [hp, if_false]
            refine ihk t' ?_ s
            by_contra hne
            obtain ⟨l, hl⟩ := Option.ne_none_iff_exists'.1 hne
            exact hr (h _ hl)
      · rename_i hn
        have hn' : ¬ name.ns = some svgNs := hn
        simp only [hn', if_false]
        refine ihk t ?_ s
        by_contra hne
        obtain ⟨l, hl⟩ := Option.ne_none_iff_exists'.1 hne
        exact hr (h _ hl)
    · exact absurd (h [] rfl) hr

/-! ### Earlier segments -/

/-- The same state with earlier segments. -/
def PathState.after (pre : List Seg) (s : PathState) : PathState := { s with segs := pre ++ s.segs }

theorem lineLoop_after (rel : Bool) (tr : Transform) (pre : List Seg) (args : List ℝ) (s : PathState) :
    lineLoop rel tr args (s.after pre) = (lineLoop rel tr args s).after pre := by
  fun_induction lineLoop rel tr args s with
  | case1 s x y rest pos ih => rw [← ih]; simp [lineLoop, PathState.after, PathState.push, pos]
  | case2 args s h => rw [lineLoop]; exact h

theorem vertLoop_after (rel : Bool) (tr : Transform) (pre : List Seg) (args : List ℝ) (s : PathState) :
    vertLoop rel tr args (s.after pre) = (vertLoop rel tr args s).after pre := by
  induction args generalizing s with
  | nil => rfl
  | cons y rest ih => simp only [vertLoop]; rw [← ih]; simp [PathState.after, PathState.push]

theorem horLoop_after (rel : Bool) (tr : Transform) (pre : List Seg) (args : List ℝ) (s : PathState) :
    horLoop rel tr args (s.after pre) = (horLoop rel tr args s).after pre := by
  induction args generalizing s with
  | nil => rfl
  | cons y rest ih => simp only [horLoop]; rw [← ih]; simp [PathState.after, PathState.push]

theorem cubicLoop_after (rel : Bool) (tr : Transform) (pre : List Seg) (args : List ℝ) (s : PathState) :
    cubicLoop rel tr args (s.after pre) = (cubicLoop rel tr args s).after pre := by
  fun_induction cubicLoop rel tr args s with
  | case1 s x1 y1 x2 y2 x y rest o p2 c1 c2 seg ih =>
    rw [← ih]; simp [cubicLoop, PathState.after, PathState.push, seg, o, p2, c1, c2]
  | case2 args s h => rw [cubicLoop]; exact h

theorem quadLoop_after (rel : Bool) (tr : Transform) (pre : List Seg) (args : List ℝ) (s : PathState) :
    quadLoop rel tr args (s.after pre) = (quadLoop rel tr args s).after pre := by
  fun_induction quadLoop rel tr args s with
  | case1 s x1 y1 x y rest o p2 m1 control seg ih =>
    rw [← ih]; simp [quadLoop, PathState.after, PathState.push, seg, o, p2, m1, control]
  | case2 args s h => rw [quadLoop]; exact h

/-- The same for what has been built. -/
def builtAfter (pre : List Seg) (b : Built) : Built := (b.1, b.2.after pre)

theorem arcLoop_after (rel : Bool) (tr : Transform) (pre : List Seg) (args : List ℝ) (s : PathState) :
    arcLoop rel tr args (s.after pre) = (arcLoop rel tr args s).map (builtAfter pre) := by
  fun_induction arcLoop rel tr args s with
  | case1 rx ry rot large sweep x y rest s a d h =>
    rw [arcLoop]
    have h' : arcSeg tr ((if rel = true then tr * ((⟨x, y⟩ : Vec) + (s.after pre).pos)
      else tr * (⟨x, y⟩ : Vec)) - tr * (s.after pre).pos) ⟨rx, ry, rot * Real.pi / 180, large ≠ 0, sweep ≠ 0⟩ = none := h
    rw [h']; rfl
  | case2 rx ry rot large sweep x y rest s a d e h =>
    rw [arcLoop]
    have h' : arcSeg tr ((if rel = true then tr * ((⟨x, y⟩ : Vec) + (s.after pre).pos)
      else tr * (⟨x, y⟩ : Vec)) - tr * (s.after pre).pos) ⟨rx, ry, rot * Real.pi / 180, large ≠ 0, sweep ≠ 0⟩ =
        some (.error e) := h
    rw [h']; rfl
  | case3 rx ry rot large sweep x y rest s a d seg h ih =>
    rw [arcLoop]
    have h' : arcSeg tr ((if rel = true then tr * ((⟨x, y⟩ : Vec) + (s.after pre).pos)
      else tr * (⟨x, y⟩ : Vec)) - tr * (s.after pre).pos) ⟨rx, ry, rot * Real.pi / 180, large ≠ 0, sweep ≠ 0⟩ =
        some (.ok seg) := h
    rw [h', ← ih]
    simp [PathState.after, PathState.push]
  | case4 args s h => rw [arcLoop]; rfl; exact h

theorem moveCmd_after (rel first : Bool) (tr : Transform) (pre : List Seg) (args : List ℝ) (s : PathState) :
    moveCmd rel first tr args (s.after pre) = (moveCmd rel first tr args s).after pre := by
  unfold moveCmd
  split
  · rw [← lineLoop_after]; simp [moveFirst, PathState.after, PathState.push]
  · rfl

theorem checkArgs_after (n : ℕ) (args : List ℝ) (pre : List Seg) (s : PathState) (b b' : Option Built)
    (h : b' = b.map (builtAfter pre)) :
    checkArgs n args (s.after pre) b' = (checkArgs n args s b).map (builtAfter pre) := by
  unfold checkArgs
  split
  · rfl
  split
  · rfl
  · exact h

/-- Earlier segments stay as they are and have no influence. -/
theorem buildPath_after (cmd : Char) (args : List ℝ) (tr : Transform) (first : Bool) (pre : List Seg)
    (s : PathState) :
    buildPath cmd args tr first (s.after pre) =
      (buildPath cmd args tr first s).map (builtAfter pre) := by
  unfold buildPath
  split <;> first
    | rfl
    | exact checkArgs_after _ _ _ _ _ _ (arcLoop_after ..)
    | (refine checkArgs_after _ _ _ _ _ _ ?_
       simp only [moveCmd_after, lineLoop_after, vertLoop_after, horLoop_after, cubicLoop_after, quadLoop_after]
       rfl)
    | simp [closeCmd, PathState.after, PathState.push, builtAfter]

/-- The same for the outcome of a path. -/
def Outcome.after (pre : List Seg) : Outcome → Outcome
  | .panic => .panic
  | .done r s => .done r (s.after pre)

theorem pathLoop_after (tr : Transform) (pre : List Seg) (text : List Char) : ∀ (first : Bool) (s : PathState),
    pathLoop tr first text (s.after pre) = (pathLoop tr first text s).map (Outcome.after pre) := by
  induction hlen : text.length using Nat.strong_induction_on generalizing text with
  | _ k ih =>
    intro first s
    rw [pathLoop, pathLoop]
    by_cases h0 : text.dropWhile isWhite = []
    · simp [h0, Outcome.after]
    simp only [h0, if_false]
    cases hc : pathCommand (text.dropWhile isWhite) with
    | none => rfl
    | some v =>
      obtain ⟨rest, cmd, args⟩ := v
      simp only [buildPath_after]
      have hlt := pathCommand_shorter hc
      have hle := (List.dropWhile_suffix isWhite (l := text)).length_le
      rcases buildPath cmd (args.map fun q : ℚ => (q : ℝ)) tr first s with _ | ⟨_ | _, s'⟩
      · rfl
      · rfl
      · exact ih rest.length (by omega) rest rfl false s'

theorem pathCommand_letter {c : Char} {r rest : List Char} {cmd : Char} {args : List ℚ}
    (hc : isWhite c = false) (h : pathCommand (c :: r) = some (rest, cmd, args)) : cmd = c := by
  obtain ⟨w, e, ⟨lead, letter, a⟩, gap, hv, -, rfl, e2⟩ := of_pathCommand _ _ _ h
  simp only [Cmd.value, Prod.mk.injEq] at e2
  have hl := white_iff.1 hv.lead
  match lead with
  | [] =>
    simp only [Cmd.text, List.nil_append, List.cons_append, List.cons.injEq] at e
    rw [e2.1, e.1]
  | x :: lead =>
    simp only [Cmd.text, List.cons_append, List.cons.injEq] at e
    have := hl x (by simp)
    rw [← e.1, hc] at this
    cases this

end StepperPaths.Svg
