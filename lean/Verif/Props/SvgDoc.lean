import Verif.Proof.SvgDoc
import Verif.Props.SvgText

/-!
Properties C48, C59 and C81: documents, layers, and paths one after the other.
-/

namespace StepperPaths.Props
open StepperPaths.Svg StepperPaths.Svg.Parser Spec.Svg Draw Coords

/-! ### C48 -/

theorem parseDocument_eq (keep : Filter) (t0 : Transform) (f : Forest) :
    parseDocument keep t0 f.events = some (match draw keep f t0 .new with
      | .into _ s' => .ok s'.segs
      | .err => .err
      | .panic => .panic) := by
  unfold parseDocument
  rw [← List.append_nil f.events, docLoop_forest]
  rcases draw keep f t0 .new with _ | _ | ⟨t, s⟩ <;> rfl

/-- **C48.**  A document without faulty elements is its paths, in document order, each with the
transforms of the elements around it. -/
theorem C48_paths (keep : Filter) (t0 : Transform) (f : Forest) (l : List (Transform × List Char))
    (h : f.paths keep t0 = some l) :
    parseDocument keep t0 f.events = some (drawPaths l .new) := by
  rw [parseDocument_eq, drawPaths_eq]
  have := draw_paths keep f t0 l h .new
  rcases hr : runPaths l .new with (_ | s) | _
  · rw [hr] at this; simp only at this ⊢; rw [this]
  · rw [hr] at this
    obtain ⟨t', ht⟩ := this
    rw [ht]
  · rw [hr] at this; simp only at this ⊢; rw [this]

/-- **C48.**  A document with a faulty element is an error, unless a path before it panics. -/
theorem C48_faulty (keep : Filter) (t0 : Transform) (f : Forest) (h : f.paths keep t0 = none) :
    parseDocument keep t0 f.events = some .err ∨ parseDocument keep t0 f.events = some .panic := by
  rw [parseDocument_eq]
  rcases draw_faulty keep f t0 h .new with h | h <;> simp [h]

theorem draw_panic (keep : Filter) (f : Forest) (t : Transform) (s : PathState)
    (h : draw keep f t s = .panic) :
    ∃ d ∈ f.dTexts, ∃ t s, parsePath d t s = some .panic := by
  induction f generalizing t s with
  | nil => cases h
  | other rest ih => exact ih t s h
  | elem name attrs kids rest ihk ihr =>
    have hk : (∃ d ∈ kids.dTexts, ∃ t s, parsePath d t s = some .panic) →
        ∃ d ∈ (Forest.elem name attrs kids rest).dTexts, ∃ t s, parsePath d t s = some .panic := by
      rintro ⟨d, hd, r⟩
      exact ⟨d, by simp [Forest.dTexts, hd], r⟩
    have next : ∀ own : Entered, (own = .panic →
        ∃ d ∈ (Forest.elem name attrs kids rest).dTexts, ∃ t s, parsePath d t s = some .panic) →
        (own.next fun s' => draw keep rest t s') = .panic →
        ∃ d ∈ (Forest.elem name attrs kids rest).dTexts, ∃ t s, parsePath d t s = some .panic := by
      intro own ho hn
      cases own with
      | err => cases hn
      | panic => exact ho rfl
      | into t' s' =>
        obtain ⟨d, hd, r⟩ := ihr t s' hn
        exact ⟨d, by simp [Forest.dTexts, hd], r⟩
    unfold draw at h
    refine next _ (fun ho => ?_) h
    split at ho
    · split at ho
      · cases he : enter t name attrs s with
        | err => rw [he] at ho; cases ho
        | into t' s' => rw [he] at ho; exact hk (ihk t' s' ho)
        | panic =>
          unfold enter at he
          split at he
          · cases he
          split at he
          · split at he
            · cases he
            rename_i t' _ _ _ d hd
            obtain ⟨o, hp⟩ := C53_terminates d t' s
            rw [hp] at he
            rcases o with _ | ⟨_ | _, s'⟩
            · refine ⟨d, ?_, t', s, hp⟩
              simp [Forest.dTexts, List.mem_of_getLast? hd]
            · cases he
            · cases he
          · cases he
      · exact hk (ihk t s ho)
    · cases ho

/-- **C48.**  The only panics are those of paths: the stack of transforms is never empty. -/
theorem C48_panics (keep : Filter) (t0 : Transform) (f : Forest)
    (h : parseDocument keep t0 f.events = some .panic) :
    ∃ d ∈ f.dTexts, ∃ t s, parsePath d t s = some .panic := by
  rw [parseDocument_eq] at h
  refine draw_panic keep f t0 .new ?_
  rcases hd : draw keep f t0 .new with _ | _ | ⟨t, s⟩
  · rw [hd] at h; cases h
  · rfl
  · rw [hd] at h; cases h

theorem draw_prune (keep : Filter) (f : Forest) (t : Transform) (s : PathState) :
    draw noFilter (f.prune keep) t s = draw keep f t s := by
  induction f generalizing t s with
  | nil => rfl
  | other rest ih => exact ih t s
  | elem name attrs kids rest ihk ihr =>
    by_cases hk : keep name attrs
    · simp only [Forest.prune, hk, if_true, draw, noFilter, ihk, ihr]
    · simp only [Forest.prune, hk, if_false, draw, ihr, Entered.next, Bool.false_eq_true]

/-- **C48.**  Elements that are not kept contribute nothing, with everything inside of them. -/
theorem C48_filtered (keep : Filter) (t0 : Transform) (f : Forest) :
    parseDocument keep t0 f.events = parseDocument noFilter t0 (f.prune keep).events := by
  rw [parseDocument_eq, parseDocument_eq, draw_prune]

/-- **C48.**  A document that breaks off, or is not well-formed, is drawn up to there without an
error. -/
theorem C48_broken (keep : Filter) (t0 : Transform) (pre post : List XmlEvent) :
    parseDocument keep t0 (pre ++ .error :: post) = parseDocument keep t0 pre := by
  unfold parseDocument
  generalize (⟨0, [], t0, .new⟩ : DocState) = st
  induction pre generalizing st with
  | nil => rfl
  | cons e pre ih =>
    simp only [List.cons_append, docLoop]
    rcases docStep keep st e with _ | _ | st'
    · rfl
    · rfl
    · exact ih st'

theorem texts_bare (key : String) (attrs : List Attr) :
    texts key (attrs.map fun a => { a with name := { a.name with ns := none } }) = texts key attrs := by
  induction attrs with
  | nil => rfl
  | cons a attrs ih => simp only [List.map_cons, texts_cons, ih]

theorem draw_bare (f : Forest) (t : Transform) (s : PathState) :
    draw noFilter f.bare t s = draw noFilter f t s := by
  induction f generalizing t s with
  | nil => rfl
  | other rest ih => exact ih t s
  | elem name attrs kids rest ihk ihr =>
    simp only [Forest.bare, draw, enter, inside, texts_bare, ihk, ihr, noFilter]

/-- **C48.**  The namespaces of attributes are not looked at: an attribute `transform`, `d`,
`viewBox`, `width` or `height` of any other vocabulary has the effect of the one of SVG. -/
theorem C48_foreign_attribute (t0 : Transform) (f : Forest) :
    parseDocument noFilter t0 f.bare.events = parseDocument noFilter t0 f.events := by
  rw [parseDocument_eq, parseDocument_eq, draw_bare]

/-! ### C59 -/

theorem layerFlags_fold (layer : List Char) (attrs : List Attr) (f : Bool × Bool) :
    ((attrs.foldl (layerFlags layer) f).1 = true ↔ f.1 = true ∨
      ⟨⟨"groupmode", some "http://www.inkscape.org/namespaces/inkscape"⟩, "layer".toList⟩ ∈ attrs) ∧
    ((attrs.foldl (layerFlags layer) f).2 = true ↔ f.2 = true ∨
      ⟨⟨"label", some "http://www.inkscape.org/namespaces/inkscape"⟩, layer⟩ ∈ attrs) := by
  induction attrs generalizing f with
  | nil => simp
  | cons a attrs ih =>
    obtain ⟨⟨n, ns⟩, v⟩ := a
    rw [List.foldl_cons, (ih _).1, (ih _).2]
    simp only [List.mem_cons, Attr.mk.injEq, Name.mk.injEq]
    unfold layerFlags inkscapeNs
    by_cases hns : ns = some "http://www.inkscape.org/namespaces/inkscape"
    · simp only [hns, if_true]
      constructor
      · split_ifs with h
        · simp [h.1, h.2]
        · have : ¬ (("groupmode" = n ∧ True) ∧ "layer".toList = v) := by
            rintro ⟨⟨rfl, -⟩, rfl⟩
            exact h ⟨rfl, rfl⟩
          rw [or_iff_right this]
      · split_ifs with h
        · simp [h.1, h.2]
        · have : ¬ (("label" = n ∧ True) ∧ layer = v) := by
            rintro ⟨⟨rfl, -⟩, rfl⟩
            exact h ⟨rfl, rfl⟩
          rw [or_iff_right this]
    · have : ¬ some "http://www.inkscape.org/namespaces/inkscape" = ns := fun h => hns h.symm
      simp [hns, this]

/-- **C59.**  With a layer, an element is left out exactly when it is an SVG group that is marked as
an Inkscape layer and has not the label of the layer. -/
theorem C59_layer (layer : List Char) (name : Name) (attrs : List Attr) :
    layerFilter layer name attrs = false ↔
      name = ⟨"g", some "http://www.w3.org/2000/svg"⟩ ∧
      ⟨⟨"groupmode", some "http://www.inkscape.org/namespaces/inkscape"⟩, "layer".toList⟩ ∈ attrs ∧
      ⟨⟨"label", some "http://www.inkscape.org/namespaces/inkscape"⟩, layer⟩ ∉ attrs := by
  obtain ⟨n, ns⟩ := name
  obtain ⟨h1, h2⟩ := layerFlags_fold layer attrs (false, false)
  simp only [Bool.false_eq_true, false_or] at h1 h2
  unfold layerFilter svgNs
  simp only [Name.mk.injEq]
  split_ifs with h h3
  · simp only [Bool.and_eq_true, Bool.not_eq_true', ← Bool.not_eq_true] at h3
    rw [h1, h2] at h3
    simpa [h] using h3
  · simp only [Bool.and_eq_true, Bool.not_eq_true', ← Bool.not_eq_true] at h3
    rw [h1, h2] at h3
    simp only [h, and_self, true_and, false_iff]
    exact h3
  · simp only [false_iff]
    exact fun h4 => h h4.1

/-- **C59.**  Without a layer nothing is left out. -/
theorem C59_all (name : Name) (attrs : List Attr) : noFilter name attrs = true := rfl

/-- A layer that is not asked for. -/
def otherLayer : List Attr :=
  [⟨⟨"label", some inkscapeNs⟩, "draft".toList⟩, ⟨⟨"groupmode", some inkscapeNs⟩, "layer".toList⟩]

example : layerFilter "cut".toList ⟨"g", some svgNs⟩ otherLayer = false ∧
    layerFilter "draft".toList ⟨"g", some svgNs⟩ otherLayer = true ∧
    layerFilter "cut".toList ⟨"g", some svgNs⟩ [⟨⟨"groupmode", none⟩, "layer".toList⟩] = true := by
  refine ⟨?_, ?_, ?_⟩
  · rw [C59_layer]; simp [otherLayer, svgNs, inkscapeNs]
  · rw [← Bool.not_eq_false, C59_layer]; simp [otherLayer, inkscapeNs]
  · rw [← Bool.not_eq_false, C59_layer]; simp

/-! ### C81 -/

theorem buildPath_move (cmd : Char) (hc : cmd = 'm' ∨ cmd = 'M') (args : List ℝ) (tr : Transform)
    (s : PathState) :
    (∃ e, buildPath cmd args tr true s = some (.error e, s) ∧
      buildPath cmd args tr true .new = some (.error e, .new)) ∨
    (∃ s', buildPath cmd args tr true .new = some (.ok (), s') ∧
      buildPath cmd args tr true s = some (.ok (), s'.after s.segs)) := by
  have key : ∀ rel : Bool, args.length ≥ 2 →
      (moveCmd rel true tr args s).noControl = ((moveCmd rel true tr args .new).noControl).after s.segs := by
    intro rel hlen
    match args, hlen with
    | x :: y :: rest, _ =>
      have h1 : moveFirst (rel && !true) tr ⟨x, y⟩ s =
          { (moveFirst (rel && !true) tr ⟨x, y⟩ .new).after s.segs with lastControl := s.lastControl } := by
        simp [moveFirst, target, PathState.push, PathState.after, PathState.new]
      have h2 : ∀ (l : List ℝ) (st : PathState) (o : Option Vec),
          (lineLoop rel tr l { st with lastControl := o }).noControl = (lineLoop rel tr l st).noControl := by
        intro l st o
        fun_induction lineLoop rel tr l st with
        | case1 s x y rest pos ih =>
          rw [lineLoop]
          exact ih
        | case2 args s h => rw [lineLoop]; rfl; exact h
      simp only [moveCmd]
      rw [h1, h2, lineLoop_after]
      rfl
  rcases hc with rfl | rfl <;> simp only [buildPath, checkArgs]
  all_goals
    split_ifs with h1 h2
    · exact .inl ⟨_, rfl, rfl⟩
    · exact .inl ⟨_, rfl, rfl⟩
    · exact .inr ⟨_, rfl, by rw [key _ (by omega)]⟩

/-- **C81.**  A path that starts with a move draws the same whatever has been drawn before. -/
theorem C81_independent (text : List Char) (h : StartsWithMove text) (tr : Transform) (s : PathState) :
    drawPaths [(tr, text)] s = (DocResult.ok s.segs).append (drawPaths [(tr, text)] .new) ∧
    ∀ s', parsePath text tr .new = some (.done (.ok ()) s') →
      parsePath text tr s = some (.done (.ok ()) { s' with segs := s.segs ++ s'.segs }) := by
  obtain ⟨lead, c, rest, hl, hc, rfl⟩ := h
  have hcw : isWhite c = false := by rcases hc with rfl | rfl <;> decide
  have hd : (lead ++ c :: rest).dropWhile isWhite = c :: rest :=
    (takeWhile_run (white_iff.1 hl) (noHead_cons.2 hcw)).2
  have key : (∃ e s1 s2, parsePath (lead ++ c :: rest) tr s = some (.done (.error e) s1) ∧
      parsePath (lead ++ c :: rest) tr .new = some (.done (.error e) s2)) ∨
      parsePath (lead ++ c :: rest) tr s = (parsePath (lead ++ c :: rest) tr .new).map (Outcome.after s.segs) := by
    unfold parsePath
    rw [pathLoop, pathLoop, hd]
    simp only [List.cons_ne_nil, if_false]
    cases hp : pathCommand (c :: rest) with
    | none => exact .inr rfl
    | some v =>
      obtain ⟨r, cmd, args⟩ := v
      have := pathCommand_letter hcw hp
      subst this
      simp only
      rcases buildPath_move cmd hc (args.map fun q : ℚ => (q : ℝ)) tr s with ⟨e, h1, h2⟩ | ⟨s', h1, h2⟩
      · rw [h1, h2]; exact .inl ⟨_, _, _, rfl, rfl⟩
      · rw [h1, h2]; exact .inr (pathLoop_after tr s.segs r false s')
  rcases key with ⟨e, s1, s2, h1, h2⟩ | h1
  · refine ⟨?_, ?_⟩
    · simp [drawPaths, h1, h2, DocResult.append]
    · rw [h2]; simp
  · obtain ⟨o, ho⟩ := C53_terminates (lead ++ c :: rest) tr .new
    rw [ho] at h1
    refine ⟨?_, ?_⟩
    · simp only [drawPaths, h1, ho]
      rcases o with _ | ⟨_ | _, s'⟩ <;> rfl
    · intro s' hs'
      rw [ho] at hs'
      injection hs' with hs'
      rw [h1, hs']
      rfl

theorem drawPaths_ok (l : List (Transform × List Char)) (hl : ∀ p ∈ l, StartsWithMove p.2) (s : PathState) :
    drawPaths l s = (DocResult.ok s.segs).append
      (l.foldr (fun p r => (drawPaths [p] .new).append r) (.ok [])) := by
  induction l generalizing s with
  | nil => simp [drawPaths, DocResult.append]
  | cons p l ih =>
    obtain ⟨t, d⟩ := p
    obtain ⟨h1, h2⟩ := C81_independent d (hl (t, d) (by simp)) t s
    have ih := ih fun p hp => hl p (by simp [hp])
    simp only [List.foldr_cons]
    generalize l.foldr (fun p r => (drawPaths [p] .new).append r) (.ok []) = q at ih ⊢
    obtain ⟨o, ho⟩ := C53_terminates d t .new
    obtain ⟨o', ho'⟩ := C53_terminates d t s
    simp only [drawPaths, ho, ho'] at h1 ⊢
    rcases o with _ | ⟨_ | _, s1⟩
    · rcases o' with _ | ⟨_ | _, s2⟩ <;> simp [DocResult.append] at h1 ⊢
    · rcases o' with _ | ⟨_ | _, s2⟩ <;> simp [DocResult.append] at h1 ⊢
    · have h3 := h2 s1 ho
      rw [ho'] at h3
      injection h3 with h3
      subst h3
      simp only
      rw [ih]
      cases q <;> simp [DocResult.append]

/-- **C81.**  A list of paths that start with a move draws each of them by itself. -/
theorem C81_separate (l : List (Transform × List Char)) (hl : ∀ p ∈ l, StartsWithMove p.2) :
    drawPaths l .new = l.foldr (fun p r => (drawPaths [p] .new).append r) (.ok []) := by
  rw [drawPaths_ok l hl]
  generalize l.foldr (fun p r => (drawPaths [p] .new).append r) (.ok []) = q
  cases q <;> simp [DocResult.append, PathState.new]

/-- **C81.**  A path that starts with a relative line is drawn from the end of the path before, in
the coordinates of that path. -/
theorem C81_joined (c : Cmd) (hc : c.Valid) (hl : c.letter = 'l') (x y : ℚ) (ha : c.args.values = [x, y])
    (tr : Transform) (s : PathState) :
    drawPaths [(tr, c.text)] s = .ok (s.segs ++ [.lineTo (tr * (⟨s.pos.x + x, s.pos.y + y⟩ : Vec))]) := by
  have h := C52_path [c] (by simpa using hc) [] (by simp [White]) tr s
  simp only [pathText, List.flatMap_cons, List.flatMap_nil, List.append_nil, List.map_cons, List.map_nil, hl,
    ha] at h
  have hb : buildAll tr true [('l', [(x : ℝ), (y : ℝ)])] s =
      some (.ok (), ⟨⟨s.pos.x + x, s.pos.y + y⟩, s.start, none,
        s.segs ++ [.lineTo (tr * (⟨s.pos.x + x, s.pos.y + y⟩ : Vec))]⟩) := by
    simp [buildAll, buildPath, checkArgs, lineLoop, target, PathState.push, PathState.noControl]
  rw [hb] at h
  simp only [drawPaths, h]

/-! ### Examples -/

/-- A document: an `svg` with a view box, in it a group that moves its contents with a path, and a
layer with another path. -/
def docOf (w h v t d d' : List Char) : Forest :=
  .elem ⟨"svg", some "http://www.w3.org/2000/svg"⟩
    [⟨⟨"width", none⟩, w⟩, ⟨⟨"height", none⟩, h⟩, ⟨⟨"viewBox", none⟩, v⟩]
    (.other (.elem ⟨"g", some "http://www.w3.org/2000/svg"⟩ [⟨⟨"transform", none⟩, t⟩]
      (.elem ⟨"path", some "http://www.w3.org/2000/svg"⟩ [⟨⟨"d", none⟩, d⟩] .nil .nil)
      (.elem ⟨"g", some "http://www.w3.org/2000/svg"⟩ otherLayer
        (.elem ⟨"path", some "http://www.w3.org/2000/svg"⟩ [⟨⟨"d", none⟩, d'⟩] .nil .nil) .nil))) .nil

theorem docOf_paths (keep : Filter) (w h v t d d' : List Char) (w' h' vx vy vw vh : ℚ) (t0 t' : Transform)
    (hw : parseLength w = some w') (hh : parseLength h = some h') (hv : parseViewBox v = some (vx, vy, vw, vh))
    (ht : parseTransform t = some t') (k1 : ∀ n ns attrs, n ≠ "g" → keep ⟨n, ns⟩ attrs = true)
    (k2 : ∀ t, keep ⟨"g", some "http://www.w3.org/2000/svg"⟩ [⟨⟨"transform", none⟩, t⟩] = true)
    (k3 : keep ⟨"g", some "http://www.w3.org/2000/svg"⟩ otherLayer = false) :
    (docOf w h v t d d').paths keep t0 =
      some [(t0 * (⟨w' / vw, 0, 0, h' / vh, 0, 0⟩ : Transform) * t', d)] := by
  simp [docOf, Forest.paths, k1, k2, k3, inside, texts, hw, hh, hv, ht]

def exampleDoc : Forest :=
  docOf "8mm".toList "4mm".toList "0 0 4 4".toList "translate(3)".toList "M 1,2\nl.5 -3e1 ".toList
    "no path".toList

theorem exampleDoc_paths : ∃ t : Transform, (∀ p : Vec, t * p = ⟨2 * (p.x + 3), p.y⟩) ∧
    exampleDoc.paths (layerFilter "cut".toList) .identity = some [(t, "M 1,2\nl.5 -3e1 ".toList)] := by
  have hw : parseLength "8mm".toList = some 8 := by
    have := C80_length [] [] (by simp [Blank]) (by simp [Blank]) (int 8) (int_valid 8) "mm" 1
      (by simp [units]) []
    rw [int_value] at this
    rw [show "8mm".toList = [] ++ ((int 8).text ++ ([] ++ ("mm".toList ++ []))) by decide, this]
    norm_num
  have hh : parseLength "4mm".toList = some 4 := by
    have := C80_length [] [] (by simp [Blank]) (by simp [Blank]) (int 4) (int_valid 4) "mm" 1
      (by simp [units]) []
    rw [int_value] at this
    rw [show "4mm".toList = [] ++ ((int 4).text ++ ([] ++ ("mm".toList ++ []))) by decide, this]
    norm_num
  have hv : parseViewBox "0 0 4 4".toList = some (0, 0, 4, 4) := by
    have hs : Separator [' '] := .inl ⟨by simp [Blank], by simp⟩
    have := C80_view_box [] (by simp [Blank]) (int 0) (int 0) (int 4) (int 4) (int_valid _) (int_valid _)
      (int_valid _) (int_valid _) [' '] [' '] [' '] hs hs hs [] (by simp)
    simp only [int_value] at this
    rw [show "0 0 4 4".toList = [] ++ ((int 0).text ++ ([' '] ++ ((int 0).text ++ ([' '] ++ ((int 4).text ++
      ([' '] ++ ((int 4).text ++ []))))))) by decide, this]
    norm_num
  obtain ⟨t, ht, hp⟩ : ∃ t, parseTransform "translate(3)".toList = some t ∧ ∀ p : Vec, t * p = moveBy.apply p := by
    obtain ⟨t, ht, hp⟩ := C55_list [] (by simp [Blank]) moveBy moveBy_valid [] (by simp) [] (by
      rintro ⟨sep, c, r, -, -, e⟩
      simp [Call.text] at e)
    exact ⟨t, by rw [← ht]; rfl, by simpa [applyAll] using hp⟩
  have k1 : ∀ n ns attrs, n ≠ "g" → layerFilter "cut".toList ⟨n, ns⟩ attrs = true := by
    intro n ns attrs hn
    rw [← Bool.not_eq_false, C59_layer]; simp [hn]
  have k2 : ∀ t, layerFilter "cut".toList ⟨"g", some "http://www.w3.org/2000/svg"⟩
      [⟨⟨"transform", none⟩, t⟩] = true := by
    intro t
    rw [← Bool.not_eq_false, C59_layer]; simp
  have k3 : layerFilter "cut".toList ⟨"g", some "http://www.w3.org/2000/svg"⟩ otherLayer = false := by
    rw [C59_layer]; simp [otherLayer, inkscapeNs]
  refine ⟨_, fun p => ?_, docOf_paths _ _ _ _ _ _ _ _ _ _ _ _ _ _ _ hw hh hv ht k1 k2 k3⟩
  rw [mul_mul, mul_mul, hp, moveBy_apply]
  simp [Transform.identity]
  norm_num

/-- The path is moved by 3 and then made twice as wide; the other layer is not drawn, and its text,
which is not a path, is not read. -/
example : parseDocument (layerFilter "cut".toList) .identity exampleDoc.events =
    some (.ok [.goTo ⟨8, 2⟩, .lineTo ⟨9, -28⟩]) := by
  obtain ⟨t, ht, hp⟩ := exampleDoc_paths
  rw [C48_paths _ _ _ _ hp]
  have h := C52_path exampleCmds exampleCmds_valid [' '] (by
    intro c hc
    simp only [List.mem_cons, List.not_mem_nil, or_false] at hc
    subst hc
    exact .inr (.inr (by decide))) t .new
  have e : pathText exampleCmds ++ [' '] = "M 1,2\nl.5 -3e1 ".toList := by decide
  rw [e] at h
  have hb : buildAll t true (exampleCmds.map fun c => (c.letter, c.args.values.map fun q : ℚ => (q : ℝ))) .new =
      some (.ok (), ⟨⟨3 / 2, -28⟩, ⟨1, 2⟩, none, [.goTo ⟨8, 2⟩, .lineTo ⟨9, -28⟩]⟩) := by
    simp only [exampleCmds, Args.values, NumList.values, List.map_cons, List.map_nil, Num.value, Digits.val,
      Sign.val]
    simp only [buildAll, buildPath, checkArgs, moveCmd, moveFirst, lineLoop, target, PathState.push,
      PathState.new, PathState.noControl, ht]
    norm_num [Nat.ofDigits, Exp.val, Digits.val, Sign.val]
  rw [hb] at h
  simp only [drawPaths, h]

/-- The texts that C48_panics is about include those of elements that are left out. -/
example : ∃ d ∈ exampleDoc.dTexts, d = "no path".toList := ⟨_, by decide, rfl⟩

/-- A document that breaks off within a path element is no error. -/
example : parseDocument noFilter .identity [.start ⟨"g", some svgNs⟩ [], .error] = some (.ok []) := by
  have := C48_broken noFilter .identity [.start ⟨"g", some svgNs⟩ []] []
  rw [List.singleton_append] at this
  rw [this]
  rfl

/-- A path that starts with a move. -/
theorem exampleCmds_move : StartsWithMove "M 1,2\nl.5 -3e1 ".toList :=
  ⟨[], 'M', " 1,2\nl.5 -3e1 ".toList, by simp [White], .inr rfl, rfl⟩

/-- Drawn twice it gives twice the same. -/
example (t : Transform) : drawPaths [(t, "M 1,2\nl.5 -3e1 ".toList), (t, "M 1,2\nl.5 -3e1 ".toList)] .new =
    (drawPaths [(t, "M 1,2\nl.5 -3e1 ".toList)] .new).append
      ((drawPaths [(t, "M 1,2\nl.5 -3e1 ".toList)] .new).append (.ok [])) :=
  C81_separate _ fun p hp => by
    simp only [List.mem_cons, List.not_mem_nil, or_false, or_self] at hp
    rw [hp]
    exact exampleCmds_move

/-- `l3,4` after a path that ended at (1, 2). -/
example : drawPaths [(.identity, "l3,4".toList)] ⟨⟨1, 2⟩, ⟨0, 0⟩, none, []⟩ = .ok [.lineTo ⟨4, 6⟩] := by
  have h := C81_joined ⟨[], 'l', .some [] (int 3) (.cons [','] (int 4) .nil)⟩
    ⟨by simp [White], by decide, by simp [Blank], int_valid 3, .inr ⟨[], [], by simp [Blank], by simp [Blank], rfl⟩,
      int_valid 4, trivial⟩ rfl 3 4 (by simp [Args.values, NumList.values, int_value]) .identity
    ⟨⟨1, 2⟩, ⟨0, 0⟩, none, []⟩
  have e : Cmd.text ⟨[], 'l', .some [] (int 3) (.cons [','] (int 4) .nil)⟩ = "l3,4".toList := by decide
  rw [e] at h
  rw [h]
  simp [Transform.identity]
  norm_num

end StepperPaths.Props
