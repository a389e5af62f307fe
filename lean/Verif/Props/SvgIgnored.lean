import Verif.Model.Special
import Verif.Model.SvgDoc
import Verif.Props.AnyDrawing

/-!
C133: what of a document `svg_path` looks at.  Of the elements of the SVG name space only `path` and `svg` differ from a
group, and of the attributes only `transform`, `d`, `viewBox`, `width` and `height` are read.  So a path that is hidden,
or is part of a definition, a clip path, a mask, a pattern, a marker or a symbol is burnt like any other, and shapes such
as `rect`, `circle`, `line`, `polygon` or `text` leave no mark.  The position of the view box makes no difference either.
-/

namespace StepperPaths.Props
open Config Control Svg Coords Rounded StepperPaths.Cli Program

/-- The names of the attributes that are read. -/
def readAttrs : List String := ["transform", "d", "viewBox", "width", "height"]

/-- The local name of an element, all others than `path` and `svg` taken for groups. -/
def plainName (n : String) : String := if n = "path" ∨ n = "svg" then n else "g"

/-- What is left of a document if everything that an SVG viewer may heed but `svg_path` does not is taken out: the
elements of other name spaces, the text and the comments, the names of all elements but `path` and `svg`, and all
attributes but five. -/
def bare : XmlEvent → List XmlEvent
  | .start n attrs =>
    if n.ns = some "http://www.w3.org/2000/svg" then
      [.start ⟨plainName n.local, n.ns⟩ (attrs.filter fun a => a.name.local ∈ readAttrs)]
    else []
  | .finish n => if n.ns = some "http://www.w3.org/2000/svg" then [.finish ⟨"g", n.ns⟩] else []
  | .error => [.error]
  | .other => []

/-- With `--layer` groups are told from other elements, and the attributes of Inkscape are read as well. -/
def layerName (n : String) : String := if n = "path" ∨ n = "svg" ∨ n = "g" then n else "a"

def bareLayer : XmlEvent → List XmlEvent
  | .start n attrs =>
    [.start ⟨layerName n.local, n.ns⟩ (attrs.filter fun a => a.name.local ∈ readAttrs ∨
      a.name.ns = some "http://www.inkscape.org/namespaces/inkscape")]
  | .finish n => [.finish ⟨"g", n.ns⟩]
  | .error => [.error]
  | .other => []

theorem plainName_path (n : String) : plainName n = "path" ↔ n = "path" := by
  unfold plainName; split <;> simp_all

theorem plainName_svg (n : String) : plainName n = "svg" ↔ n = "svg" := by
  unfold plainName; split <;> simp_all

theorem layerName_path (n : String) : layerName n = "path" ↔ n = "path" := by
  unfold layerName; split <;> simp_all

theorem layerName_svg (n : String) : layerName n = "svg" ↔ n = "svg" := by
  unfold layerName; split <;> simp_all

theorem layerName_g (n : String) : layerName n = "g" ↔ n = "g" := by
  unfold layerName; split <;> simp_all

section
variable (fl : ℝ → ℝ) (lib : Lib)

theorem collectF_unread (c : Collected) (a : Attr) (h : a.name.local ∉ readAttrs) :
    Rounded.collectF fl lib c a = some c := by
  simp only [readAttrs, List.mem_cons, List.not_mem_nil, or_false, not_or] at h
  simp [Rounded.collectF, h]

theorem collectAllF_filter (keep : Attr → Bool) (hk : ∀ a, a.name.local ∈ readAttrs → keep a = true) (t : Transform)
    (attrs : List Attr) :
    Rounded.collectAllF fl lib t (attrs.filter keep) = Rounded.collectAllF fl lib t attrs := by
  unfold Rounded.collectAllF
  generalize (⟨t, none, none, none, none⟩ : Collected) = c
  induction attrs generalizing c with
  | nil => rfl
  | cons a as ih =>
    by_cases ha : keep a = true
    · rw [List.filter_cons_of_pos ha, List.foldlM_cons, List.foldlM_cons]
      congr 1
      funext c'
      exact ih c'
    · rw [List.filter_cons_of_neg ha, List.foldlM_cons,
        collectF_unread fl lib c a (fun h => ha (hk a h)), ih c]
      rfl

/-- The same start, renamed and with fewer attributes. -/
theorem docStepF_start (keep : Filter) (st : DocState) (n n' : Svg.Name) (attrs attrs' : List Attr)
    (hk : keep n' attrs' = keep n attrs) (hns : n'.ns = n.ns) (hp : n'.local = "path" ↔ n.local = "path")
    (hs : n'.local = "svg" ↔ n.local = "svg")
    (hc : ∀ t, Rounded.collectAllF fl lib t attrs' = Rounded.collectAllF fl lib t attrs) :
    Rounded.docStepF fl lib keep st (.start n' attrs') = Rounded.docStepF fl lib keep st (.start n attrs) := by
  simp only [Rounded.docStepF, hk, hns, hc, hp, hs]

theorem docLoopF_bare (es : List XmlEvent) (st : DocState) (h : st.ignore = 0) :
    Rounded.docLoopF fl lib noFilter (es.flatMap bare) st = Rounded.docLoopF fl lib noFilter es st := by
  induction es generalizing st with
  | nil => rfl
  | cons e es ih =>
    have key : ∀ r, Rounded.docStepF fl lib noFilter st e = some (.inr r) → r.ignore = 0 := by
      intro r hr
      cases e with
      | start n attrs =>
        simp only [Rounded.docStepF, h, noFilter, gt_iff_lt, lt_self_iff_false, decide_false, Bool.not_true,
          Bool.or_self, Bool.false_eq_true, if_false] at hr
        repeat' split at hr
        all_goals first
          | (simp at hr; done)
          | (simp only [Option.some.injEq, Sum.inr.injEq] at hr; subst hr; first | exact h | simp)
      | finish n =>
        simp only [Rounded.docStepF, h, gt_iff_lt, lt_self_iff_false, if_false] at hr
        repeat' split at hr
        all_goals first
          | (simp at hr; done)
          | (simp only [Option.some.injEq, Sum.inr.injEq] at hr; subst hr; first | exact h | simp)
      | error => simp [Rounded.docStepF] at hr
      | other =>
        simp only [Rounded.docStepF, Option.some.injEq, Sum.inr.injEq] at hr
        exact hr ▸ h
    have go : ∀ e', Rounded.docStepF fl lib noFilter st e' = Rounded.docStepF fl lib noFilter st e →
        Rounded.docLoopF fl lib noFilter (e' :: es.flatMap bare) st =
          Rounded.docLoopF fl lib noFilter (e :: es) st := by
      intro e' he
      rw [Rounded.docLoopF, Rounded.docLoopF, he]
      split
      · rfl
      · rfl
      · exact ih _ (key _ (by assumption))
    have skip : Rounded.docStepF fl lib noFilter st e = some (.inr st) →
        Rounded.docLoopF fl lib noFilter (es.flatMap bare) st = Rounded.docLoopF fl lib noFilter (e :: es) st := by
      intro he
      rw [Rounded.docLoopF, he]
      exact ih _ h
    rw [List.flatMap_cons]
    cases e with
    | start n attrs =>
      by_cases hn : n.ns = some "http://www.w3.org/2000/svg"
      · simp only [bare, hn, if_true, List.singleton_append]
        refine go _ (docStepF_start fl lib noFilter st n _ attrs _ rfl hn.symm (plainName_path _) (plainName_svg _)
          fun t => collectAllF_filter fl lib _ (fun a ha => by simpa using ha) t attrs)
      · simp only [bare, hn, if_false, List.nil_append]
        exact skip (by simp [Rounded.docStepF, h, noFilter, svgNs, hn])
    | finish n =>
      by_cases hn : n.ns = some "http://www.w3.org/2000/svg"
      · simp only [bare, hn, if_true, List.singleton_append]
        exact go _ (by simp only [Rounded.docStepF, hn])
      · simp only [bare, hn, if_false, List.nil_append]
        exact skip (by simp [Rounded.docStepF, h, svgNs, hn])
    | error => exact go _ rfl
    | other => exact skip rfl

theorem layerFlags_filter (layer : List Char) (keep : Attr → Bool)
    (hk : ∀ a, a.name.ns = some inkscapeNs → keep a = true) (attrs : List Attr) (f : Bool × Bool) :
    (attrs.filter keep).foldl (layerFlags layer) f = attrs.foldl (layerFlags layer) f := by
  induction attrs generalizing f with
  | nil => rfl
  | cons a as ih =>
    by_cases ha : keep a = true
    · rw [List.filter_cons_of_pos ha, List.foldl_cons, List.foldl_cons, ih]
    · have : layerFlags layer f a = f := by
        unfold layerFlags
        rw [if_neg (fun h => ha (hk a h))]
      rw [List.filter_cons_of_neg ha, List.foldl_cons, this, ih]

theorem docLoopF_bareLayer (layer : List Char) (es : List XmlEvent) (st : DocState) :
    Rounded.docLoopF fl lib (layerFilter layer) (es.flatMap bareLayer) st =
      Rounded.docLoopF fl lib (layerFilter layer) es st := by
  induction es generalizing st with
  | nil => rfl
  | cons e es ih =>
    have go : ∀ e', Rounded.docStepF fl lib (layerFilter layer) st e' =
          Rounded.docStepF fl lib (layerFilter layer) st e →
        Rounded.docLoopF fl lib (layerFilter layer) (e' :: es.flatMap bareLayer) st =
          Rounded.docLoopF fl lib (layerFilter layer) (e :: es) st := by
      intro e' he
      rw [Rounded.docLoopF, Rounded.docLoopF, he]
      split
      · rfl
      · rfl
      · exact ih _
    rw [List.flatMap_cons]
    cases e with
    | start n attrs =>
      refine go _ (docStepF_start fl lib _ st n _ attrs _ ?_ rfl (layerName_path _) (layerName_svg _)
        fun t => collectAllF_filter fl lib _ (fun a ha => by simp [ha]) t attrs)
      unfold layerFilter
      simp only [layerName_g]
      rw [layerFlags_filter layer _ (fun a ha => by simpa [inkscapeNs] using Or.inr ha)]
    | finish n => exact go _ (by simp only [Rounded.docStepF])
    | error => exact go _ rfl
    | other =>
      rw [Rounded.docLoopF]
      exact ih _

/-- Without `--layer`, whatever the document: nothing but the bare document counts, for the whole program. -/
theorem C133_bare (e : Env) (cfg : Xy) (o : SvgNumbers) (doc : List XmlEvent) (p : Option Port) :
    Special.svgAny fl lib e cfg o none (doc.flatMap bare) p = Special.svgAny fl lib e cfg o none doc p := by
  unfold Special.svgAny
  have : Rounded.parseDocumentF fl lib (keepOf none) .identity (doc.flatMap bare) =
      Rounded.parseDocumentF fl lib (keepOf none) .identity doc := docLoopF_bare fl lib doc _ rfl
  rw [this]

/-- With `--layer`. -/
theorem C133_layer (e : Env) (cfg : Xy) (o : SvgNumbers) (layer : List Char) (doc : List XmlEvent) (p : Option Port) :
    Special.svgAny fl lib e cfg o (some layer) (doc.flatMap bareLayer) p =
      Special.svgAny fl lib e cfg o (some layer) doc p := by
  unfold Special.svgAny
  have : Rounded.parseDocumentF fl lib (keepOf (some layer)) .identity (doc.flatMap bareLayer) =
      Rounded.parseDocumentF fl lib (keepOf (some layer)) .identity doc := docLoopF_bareLayer fl lib layer doc _
  rw [this]

/-- Two documents that are the same when bare are burnt the same. -/
theorem C133_same (e : Env) (cfg : Xy) (o : SvgNumbers) (doc doc' : List XmlEvent) (p : Option Port)
    (h : doc.flatMap bare = doc'.flatMap bare) :
    Special.svgAny fl lib e cfg o none doc p = Special.svgAny fl lib e cfg o none doc' p := by
  rw [← C133_bare, h, C133_bare]

/-- An element may be called anything but `path` and `svg`, and have any other attributes: what is in it is drawn as
if it were in a group. -/
theorem C133_hidden (e : Env) (cfg : Xy) (o : SvgNumbers) (before inner after : List XmlEvent) (n : String)
    (attrs attrs' : List Attr) (hn : n ≠ "path" ∧ n ≠ "svg")
    (ha : attrs.filter (fun a => a.name.local ∈ readAttrs) = attrs'.filter (fun a => a.name.local ∈ readAttrs))
    (p : Option Port) :
    Special.svgAny fl lib e cfg o none (before ++ .start ⟨n, some svgNs⟩ attrs ::
        (inner ++ .finish ⟨n, some svgNs⟩ :: after)) p =
      Special.svgAny fl lib e cfg o none (before ++ .start ⟨"g", some svgNs⟩ attrs' ::
        (inner ++ .finish ⟨"g", some svgNs⟩ :: after)) p := by
  apply C133_same
  simp [List.flatMap_append, List.flatMap_cons, bare, svgNs, plainName, hn, ha]

/-- A shape, or any other element without a path or `svg` in it, leaves no mark, provided that its transforms and view
boxes can be read. -/
theorem docLoopF_shape (keep : Filter) (n : String) (attrs : List Attr) (hn : n ≠ "path" ∧ n ≠ "svg")
    (ht : ∀ a ∈ attrs, a.name.local = "transform" → (Rounded.parseTransformF fl lib a.value).isSome)
    (hv : ∀ a ∈ attrs, a.name.local = "viewBox" → (parseViewBox a.value).isSome) (es : List XmlEvent) (st : DocState) :
    Rounded.docLoopF fl lib keep (.start ⟨n, some svgNs⟩ attrs :: .finish ⟨n, some svgNs⟩ :: es) st =
      Rounded.docLoopF fl lib keep es st := by
  have hc : ∀ c, ∃ c', attrs.foldlM (Rounded.collectF fl lib) c = some c' := by
    clear st
    induction attrs with
    | nil => exact fun c => ⟨c, rfl⟩
    | cons a as ih =>
      intro c
      obtain ⟨c1, h1⟩ : ∃ c1, Rounded.collectF fl lib c a = some c1 := by
        unfold Rounded.collectF
        split
        · rename_i h
          obtain ⟨t, h⟩ := Option.isSome_iff_exists.1 (ht a (by simp) h)
          exact ⟨_, by rw [h]; rfl⟩
        · split
          · exact ⟨_, rfl⟩
          · split
            · rename_i h
              obtain ⟨t, h⟩ := Option.isSome_iff_exists.1 (hv a (by simp) h)
              exact ⟨_, by rw [h]; rfl⟩
            · split
              · exact ⟨_, rfl⟩
              · split
                · exact ⟨_, rfl⟩
                · exact ⟨_, rfl⟩
      rw [List.foldlM_cons, h1]
      exact ih (fun a h => ht a (by simp [h])) (fun a h => hv a (by simp [h])) c1
  obtain ⟨i, s, t, path⟩ := st
  obtain ⟨c', hc'⟩ := hc ⟨t, none, none, none, none⟩
  have hc' : Rounded.collectAllF fl lib t attrs = some c' := hc'
  by_cases hi : (i > 0 || !keep ⟨n, some svgNs⟩ attrs) = true
  · rw [Rounded.docLoopF]
    simp only [Rounded.docStepF, hi, if_true]
    rw [Rounded.docLoopF]
    simp [Rounded.docStepF]
  · rw [Rounded.docLoopF]
    have : i = 0 := by simp at hi; exact hi.1
    subst this
    have hk : keep ⟨n, some svgNs⟩ attrs = true := by simpa using hi
    simp [Rounded.docStepF, hk, hc', hn, Rounded.docLoopF]

theorem docLoopF_append (keep : Filter) (es fs gs : List XmlEvent)
    (h : ∀ st, Rounded.docLoopF fl lib keep fs st = Rounded.docLoopF fl lib keep gs st) (st : DocState) :
    Rounded.docLoopF fl lib keep (es ++ fs) st = Rounded.docLoopF fl lib keep (es ++ gs) st := by
  induction es generalizing st with
  | nil => exact h st
  | cons e es ih =>
    rw [List.cons_append, List.cons_append, Rounded.docLoopF, Rounded.docLoopF]
    split
    · rfl
    · rfl
    · exact ih _

theorem svgAny_congr (e : Env) (cfg : Xy) (o : SvgNumbers) (layer : Option Arg) (before fs gs : List XmlEvent)
    (h : ∀ st, Rounded.docLoopF fl lib (keepOf layer) fs st = Rounded.docLoopF fl lib (keepOf layer) gs st)
    (p : Option Port) :
    Special.svgAny fl lib e cfg o layer (before ++ fs) p = Special.svgAny fl lib e cfg o layer (before ++ gs) p := by
  unfold Special.svgAny
  have : Rounded.parseDocumentF fl lib (keepOf layer) .identity (before ++ fs) =
      Rounded.parseDocumentF fl lib (keepOf layer) .identity (before ++ gs) := docLoopF_append fl lib _ _ _ _ h _
  rw [this]

/-- A shape may be put anywhere into a document or taken out of it. -/
theorem C133_shape (e : Env) (cfg : Xy) (o : SvgNumbers) (layer : Option Arg) (before after : List XmlEvent) (n : String)
    (attrs : List Attr) (hn : n ≠ "path" ∧ n ≠ "svg")
    (ht : ∀ a ∈ attrs, a.name.local = "transform" → (Rounded.parseTransformF fl lib a.value).isSome)
    (hv : ∀ a ∈ attrs, a.name.local = "viewBox" → (parseViewBox a.value).isSome) (p : Option Port) :
    Special.svgAny fl lib e cfg o layer (before ++ .start ⟨n, some svgNs⟩ attrs :: .finish ⟨n, some svgNs⟩ :: after) p =
      Special.svgAny fl lib e cfg o layer (before ++ after) p :=
  svgAny_congr fl lib e cfg o layer before _ _ (docLoopF_shape fl lib _ n attrs hn ht hv after) p

/-- Two that differ in the position of the view box only. -/
def Shifted (c c' : Collected) : Prop :=
  c'.transform = c.transform ∧ c'.d = c.d ∧ c'.width = c.width ∧ c'.height = c.height ∧
    c'.viewBox.map (fun v => v.2.2) = c.viewBox.map (fun v => v.2.2)

theorem collectF_shifted {c c' : Collected} (h : Shifted c c') (a : Attr) :
    (Rounded.collectF fl lib c a = none ∧ Rounded.collectF fl lib c' a = none) ∨
      ∃ d d', Rounded.collectF fl lib c a = some d ∧ Rounded.collectF fl lib c' a = some d' ∧ Shifted d d' := by
  obtain ⟨h1, h2, h3, h4, h5⟩ := h
  unfold Rounded.collectF
  split
  · cases Rounded.parseTransformF fl lib a.value with
    | none => exact .inl ⟨rfl, rfl⟩
    | some t => exact .inr ⟨_, _, rfl, rfl, by simp [Shifted, *]⟩
  · split
    · exact .inr ⟨_, _, rfl, rfl, by simp [Shifted, *]⟩
    · split
      · cases parseViewBox a.value with
        | none => exact .inl ⟨rfl, rfl⟩
        | some t => exact .inr ⟨_, _, rfl, rfl, by simp [Shifted, *]⟩
      · split
        · exact .inr ⟨_, _, rfl, rfl, by simp [Shifted, *]⟩
        · split
          · exact .inr ⟨_, _, rfl, rfl, by simp [Shifted, *]⟩
          · exact .inr ⟨_, _, rfl, rfl, by simp [Shifted, *]⟩

theorem foldlM_shifted (attrs : List Attr) : ∀ {c c' : Collected}, Shifted c c' →
    (attrs.foldlM (Rounded.collectF fl lib) c = none ∧ attrs.foldlM (Rounded.collectF fl lib) c' = none) ∨
      ∃ d d', attrs.foldlM (Rounded.collectF fl lib) c = some d ∧
        attrs.foldlM (Rounded.collectF fl lib) c' = some d' ∧ Shifted d d' := by
  induction attrs with
  | nil => exact fun h => .inr ⟨_, _, rfl, rfl, h⟩
  | cons a as ih =>
    intro c c' h
    rw [List.foldlM_cons, List.foldlM_cons]
    rcases collectF_shifted fl lib h a with ⟨h1, h2⟩ | ⟨d, d', h1, h2, h3⟩
    · rw [h1, h2]
      exact .inl ⟨rfl, rfl⟩
    · rw [h1, h2]
      exact ih h3

theorem viewScaleF_shifted {c c' : Collected} (h : Shifted c c') : Rounded.viewScaleF fl c' = Rounded.viewScaleF fl c := by
  obtain ⟨t, d, v, w, h'⟩ := c
  obtain ⟨t', d', v', w', h''⟩ := c'
  obtain ⟨h1, h2, h3, h4, h5⟩ := h
  simp only at h1 h2 h3 h4 h5
  subst h1 h2 h3 h4
  unfold Rounded.viewScaleF
  rcases v with _ | ⟨a, b, q, r⟩ <;> rcases v' with _ | ⟨a', b', q', r'⟩ <;> simp_all

/-- The first two numbers of a view box, which say where it is, make no difference to what is burnt: `svg_path` does not
move the drawing as an SVG viewer does. -/
theorem C133_view_box (e : Env) (cfg : Xy) (o : SvgNumbers) (before after : List XmlEvent) (n : Svg.Name)
    (ns : Option String) (as bs : List Attr) (v v' : List Char) (x y x' y' w h : ℚ)
    (hv : parseViewBox v = some (x, y, w, h)) (hv' : parseViewBox v' = some (x', y', w, h)) (p : Option Port) :
    Special.svgAny fl lib e cfg o none (before ++ .start n (as ++ ⟨⟨"viewBox", ns⟩, v⟩ :: bs) :: after) p =
      Special.svgAny fl lib e cfg o none (before ++ .start n (as ++ ⟨⟨"viewBox", ns⟩, v'⟩ :: bs) :: after) p := by
  apply svgAny_congr
  intro st
  rw [Rounded.docLoopF, Rounded.docLoopF]
  suffices hh : Rounded.docStepF fl lib (keepOf none) st (.start n (as ++ ⟨⟨"viewBox", ns⟩, v⟩ :: bs)) =
      Rounded.docStepF fl lib (keepOf none) st (.start n (as ++ ⟨⟨"viewBox", ns⟩, v'⟩ :: bs)) by rw [hh]
  have hc : ∀ c, (
      (as ++ ⟨⟨"viewBox", ns⟩, v⟩ :: bs).foldlM (Rounded.collectF fl lib) c = none ∧
      (as ++ ⟨⟨"viewBox", ns⟩, v'⟩ :: bs).foldlM (Rounded.collectF fl lib) c = none) ∨
      ∃ d d', (as ++ ⟨⟨"viewBox", ns⟩, v⟩ :: bs).foldlM (Rounded.collectF fl lib) c = some d ∧
        (as ++ ⟨⟨"viewBox", ns⟩, v'⟩ :: bs).foldlM (Rounded.collectF fl lib) c = some d' ∧ Shifted d d' := by
    intro c
    rw [List.foldlM_append, List.foldlM_append]
    cases as.foldlM (Rounded.collectF fl lib) c with
    | none => exact .inl ⟨rfl, rfl⟩
    | some c =>
      have e1 : Rounded.collectF fl lib c ⟨⟨"viewBox", ns⟩, v⟩ = some { c with viewBox := some (x, y, w, h) } := by
        simp [Rounded.collectF, hv]
      have e2 : Rounded.collectF fl lib c ⟨⟨"viewBox", ns⟩, v'⟩ = some { c with viewBox := some (x', y', w, h) } := by
        simp [Rounded.collectF, hv']
      show (_ ∧ _) ∨ _
      simp only [Option.bind_eq_bind, Option.bind_some, List.foldlM_cons, e1, e2]
      exact foldlM_shifted fl lib bs (by simp [Shifted])
  simp only [Rounded.docStepF, keepOf, noFilter]
  rcases hc ⟨st.transform, none, none, none, none⟩ with ⟨h1, h2⟩ | ⟨d, d', h1, h2, h3⟩
  · simp only [Rounded.collectAllF, h1, h2]
  · simp only [Rounded.collectAllF, h1, h2, viewScaleF_shifted fl h3, h3.1, h3.2.1]

/-- On the command line. -/
theorem C133_command (e : Env) (w : World (List XmlEvent)) (args : List Arg)
    (hl : ∀ m, getopts svgOpts args = some m → m.str "layer" = none) :
    svgCommand (Special.svgAny fl lib e) { w with picture := fun f => (w.picture f).map fun doc => doc.flatMap bare } args =
      svgCommand (Special.svgAny fl lib e) w args := by
  unfold svgCommand
  cases hm : getopts svgOpts args with
  | none => rfl
  | some m =>
    have hl := hl m hm
    simp only [hl]
    split
    · rfl
    · split
      · rfl
      · rfl
      · rename_i file _ name _ _
        cases w.picture file with
        | none => rfl
        | some doc => simp only [Option.map_some, C133_bare]

end

/-! ### Examples -/

/-- A path in a clip path in definitions that are not displayed, next to a rectangle. -/
def hiddenDoc (d : List Char) : List XmlEvent :=
  [.other, .start ⟨"svg", some svgNs⟩ [⟨⟨"width", none⟩, "8mm".toList⟩, ⟨⟨"height", none⟩, "4mm".toList⟩],
    .start ⟨"defs", some svgNs⟩ [⟨⟨"style", none⟩, "display:none".toList⟩],
    .start ⟨"clipPath", some svgNs⟩ [⟨⟨"id", none⟩, "c".toList⟩],
    .start ⟨"path", some svgNs⟩ [⟨⟨"visibility", none⟩, "hidden".toList⟩, ⟨⟨"d", none⟩, d⟩],
    .finish ⟨"path", some svgNs⟩, .finish ⟨"clipPath", some svgNs⟩, .finish ⟨"defs", some svgNs⟩,
    .start ⟨"rect", some svgNs⟩ [⟨⟨"x", none⟩, "1".toList⟩, ⟨⟨"width", none⟩, "3".toList⟩, ⟨⟨"height", none⟩, "2".toList⟩],
    .finish ⟨"rect", some svgNs⟩, .finish ⟨"svg", some svgNs⟩]

/-- The same path on its own. -/
def openDoc (d : List Char) : List XmlEvent :=
  [.start ⟨"svg", some svgNs⟩ [⟨⟨"width", none⟩, "8mm".toList⟩, ⟨⟨"height", none⟩, "4mm".toList⟩],
    .start ⟨"g", some svgNs⟩ [], .start ⟨"g", some svgNs⟩ [],
    .start ⟨"path", some svgNs⟩ [⟨⟨"d", none⟩, d⟩], .finish ⟨"path", some svgNs⟩,
    .finish ⟨"g", some svgNs⟩, .finish ⟨"g", some svgNs⟩, .finish ⟨"svg", some svgNs⟩]

/-- They are burnt the same. -/
example (fl : ℝ → ℝ) (lib : Lib) (e : Env) (cfg : Xy) (o : SvgNumbers) (d : List Char) (p : Option Port) :
    Special.svgAny fl lib e cfg o none (hiddenDoc d) p = Special.svgAny fl lib e cfg o none (openDoc d) p := by
  have h := C133_shape fl lib e cfg o none
    ((hiddenDoc d).take 8) [.finish ⟨"svg", some svgNs⟩] "rect"
    [⟨⟨"x", none⟩, "1".toList⟩, ⟨⟨"width", none⟩, "3".toList⟩, ⟨⟨"height", none⟩, "2".toList⟩] (by decide)
    (by simp) (by simp) p
  refine Eq.trans h (C133_same fl lib e cfg o _ _ p ?_)
  simp [hiddenDoc, openDoc, bare, plainName, svgNs, readAttrs]

/-- Left alone, the hidden path is not left out: nothing of it is missing when bare. -/
example : (hiddenDoc "M0,0".toList).flatMap bare ≠ [] := by
  simp [hiddenDoc, bare, svgNs]

end StepperPaths.Props
