import Verif.Proof.RoundedPicture
import Verif.Proof.RoundedSvgExact
import Verif.Props.Rounded

/-! # C98: the reading of SVG documents with rounding -/

namespace StepperPaths.Props
open Coords Context Spec Draw Program StepperPaths.Svg Spec.Svg Rounded

/-- C98: without rounding, the model with rounding is the exact model, for every document. -/
theorem C98_exact (keep : Filter) (t : Transform) (es : List XmlEvent) :
    parseDocumentF id exactLib keep t es = parseDocument keep t es := SvgExact.docLoop_id keep es _

/-- The exact functions are a library as it is assumed. -/
theorem C98_lib : FloatLib exactLib := by
  refine ⟨⟨fun x => ?_, fun x => ?_⟩, fun x => ?_⟩
  · simp [exactLib]
  · simp [exactLib]
  · simp only [exactLib, sub_self, abs_zero]
    positivity

/-- C98: the computed lines and curves of a document without arcs are as many as it has, in the same order, and nowhere
farther from them than the bound `δ` that follows from the sizes of the numbers in the document. -/
theorem C98_document (fl : ℝ → ℝ) (hf : FloatRounding fl) (lib : Lib) (hl : FloatLib lib) (keep : Filter) (f : Forest)
    (l : List Drawing) (hn : l ≠ []) (hv : ∀ d ∈ l, d.Valid)
    (hp : f.paths keep .identity = some (l.map fun d => (d.tr, d.text)))
    (z : List Size) (hz : f.sizes keep ⟨.identity, 0⟩ = some z) (δ : Axis → ℝ) (hr : List.Forall₂ (Readable δ) l z) :
    ∃ p0 rest, parseDocumentF fl lib keep .identity f.events = some (.ok (.goTo p0 :: rest)) ∧
      List.Forall₂ (CloseLines δ) (linesOf p0 rest) (picture l) := by
  have nested : ∀ s ∈ z, s.count ≤ 30 := by
    clear hz hp hv hn
    induction hr with
    | nil => simp
    | cons h _ ih =>
      intro s hs
      rcases List.mem_cons.1 hs with rfl | hs
      · exact h.nested
      · exact ih s hs
  obtain ⟨p', h1, h2⟩ := Acc.paths_near (t' := .identity) (t := .identity) hf hl keep f (s := ⟨.identity, 0⟩) (fun _ => Acc.TApp.identity _ _) hp hz nested
  obtain ⟨s', a', h3, h4, h5, h6⟩ := Acc.pictures_near (lib := lib) hf (Even := fun _ => True) (fun _ h _ _ => ⟨0, _, Acc.Readable.ok h _⟩) l h2 (fun _ _ => trivial) hv hr .new
  obtain ⟨p0, rest, rfl⟩ := h6 hn
  refine ⟨p0, rest, ?_, h5 p0⟩
  rw [Acc.parseDocumentF_ok keep f _ s' p' h1 h3, h4]
  rfl

/-! ### Example -/

/-- A document with a path. -/
def boxOf (w h v d : List Char) : Forest :=
  .elem ⟨"svg", some "http://www.w3.org/2000/svg"⟩ [⟨⟨"width", none⟩, w⟩, ⟨⟨"height", none⟩, h⟩, ⟨⟨"viewBox", none⟩, v⟩]
    (.elem ⟨"path", some "http://www.w3.org/2000/svg"⟩ [⟨⟨"d", none⟩, d⟩] .nil .nil) .nil

/-- A document of 8 mm × 4 mm with a view box of 9 × 6, and a path with a curve and a line. -/
def boxDoc : Forest := boxOf "8mm".toList "4mm".toList "0 0 9 6".toList "M10,00C20,00,30,10,30,30L30,50".toList

noncomputable def boxDrawing : Drawing :=
  { bendDrawing with tr := Transform.identity * (⟨8 / 9, 0, 0, 4 / 6, 0, 0⟩ : Transform) }

theorem box_lengths : parseLength "8mm".toList = some 8 ∧ parseLength "4mm".toList = some 4 ∧
    parseViewBox "0 0 9 6".toList = some (0, 0, 9, 6) := by
  refine ⟨?_, ?_, ?_⟩
  · have := C80_length [] [] (by simp [Blank]) (by simp [Blank]) (int 8) (int_valid 8) "mm" 1
      (by simp [units]) []
    rw [int_value] at this
    rw [show "8mm".toList = [] ++ ((int 8).text ++ ([] ++ ("mm".toList ++ []))) by decide, this]
    norm_num
  · have := C80_length [] [] (by simp [Blank]) (by simp [Blank]) (int 4) (int_valid 4) "mm" 1
      (by simp [units]) []
    rw [int_value] at this
    rw [show "4mm".toList = [] ++ ((int 4).text ++ ([] ++ ("mm".toList ++ []))) by decide, this]
    norm_num
  · have hs : Separator [' '] := .inl ⟨by simp [Blank], by simp⟩
    have := C80_view_box [] (by simp [Blank]) (int 0) (int 0) (int 9) (int 6) (int_valid _) (int_valid _)
      (int_valid _) (int_valid _) [' '] [' '] [' '] hs hs hs [] (by simp)
    simp only [int_value] at this
    rw [show "0 0 9 6".toList = [] ++ ((int 0).text ++ ([' '] ++ ((int 0).text ++ ([' '] ++ ((int 9).text ++
      ([' '] ++ ((int 6).text ++ []))))))) by decide, this]
    norm_num

theorem bend_text : bendDrawing.text = "M10,00C20,00,30,10,30,30L30,50".toList := by
  show pathText bendCmds ++ [] = _
  decide

theorem boxOf_paths (w h v d : List Char) (w' h' x y vw vh : ℚ) (h1 : parseLength w = some w') (h2 : parseLength h = some h')
    (h3 : parseViewBox v = some (x, y, vw, vh)) : (boxOf w h v d).paths (keepOf none) .identity =
      some [(Transform.identity * (⟨w' / vw, 0, 0, h' / vh, 0, 0⟩ : Transform), d)] := by
  simp [boxOf, Forest.paths, keepOf, noFilter, inside, texts, h1, h2, h3]

theorem box_paths : boxDoc.paths (keepOf none) .identity = some ([boxDrawing].map fun d => (d.tr, d.text)) := by
  obtain ⟨h1, h2, h3⟩ := box_lengths
  rw [boxDoc, boxOf_paths _ _ _ _ _ _ _ _ _ _ h1 h2 h3, List.map_singleton, show boxDrawing.text = bendDrawing.text from rfl, bend_text]
  norm_num [boxDrawing]

theorem boxOf_sizes (w h v d : List Char) (w' h' x y vw vh : ℚ) (rx ry : ℝ) (h1 : parseLength w = some w') (h2 : parseLength h = some h')
    (h3 : parseViewBox v = some (x, y, vw, vh)) (h4 : ratio w' vw = some rx) (h5 : ratio h' vh = some ry) :
    (boxOf w h v d).sizes (keepOf none) ⟨.identity, 0⟩ = some [⟨Transform.identity * (⟨rx, 0, 0, ry, 0, 0⟩ : Transform), 1⟩] := by
  simp [boxOf, Forest.sizes, keepOf, noFilter, Size.inside, texts, h1, h2, h3, h4, h5, Size.times]

theorem box_sizes : boxDoc.sizes (keepOf none) ⟨.identity, 0⟩ =
    some [⟨Transform.identity * (⟨8 / 9, 0, 0, 4 / 6, 0, 0⟩ : Transform), 1⟩] := by
  obtain ⟨h1, h2, h3⟩ := box_lengths
  refine boxOf_sizes _ _ _ _ _ _ _ _ _ _ _ _ h1 h2 h3 ?_ ?_
  · unfold ratio
    rw [if_pos ⟨by norm_num, by norm_num⟩]
    norm_num
  · unfold ratio
    rw [if_pos ⟨by norm_num, by norm_num⟩]
    norm_num

theorem bend_extent : extent bendCmds = 210 ∧ numbers bendCmds = 10 := by
  constructor
  · simp [extent, bendCmds, Args.values, NumList.values, two, Num.value, Sign.val, Digits.val, mag]
    norm_num [Nat.ofDigits]
  · rfl

/-- The computed picture is less than 10⁻¹⁰ mm off: an `f64` of this size has about 15 digits. -/
example (lib : Lib) (hl : FloatLib lib) : ∃ p0 γ₁ γ₂ rest, parseDocumentF double lib (keepOf none) .identity boxDoc.events =
    some (.ok (.goTo p0 :: rest)) ∧ linesOf p0 rest = [γ₁, γ₂] ∧
    |(γ₁ (1 / 2)).x - 190 / 9| ≤ 1 / 10 ^ 10 ∧ |(γ₁ (1 / 2)).y - 5| ≤ 1 / 10 ^ 10 ∧
    |(γ₂ 1).x - 80 / 3| ≤ 1 / 10 ^ 10 ∧ |(γ₂ 1).y - 100 / 3| ≤ 1 / 10 ^ 10 := by
  have hv : boxDrawing.Valid := by
    refine ⟨bend_valid.cmds, bend_valid.trail, bend_valid.first, bend_valid.means, ?_⟩
    rintro ⟨c, hc, hc'⟩
    simp only [boxDrawing, bendDrawing, bendCmds, List.mem_cons, List.not_mem_nil, or_false] at hc
    exfalso
    rcases hc with rfl | rfl | rfl <;> revert hc' <;> decide
  have hr : Readable (fun _ => 1 / 10 ^ 10) boxDrawing ⟨Transform.identity * (⟨8 / 9, 0, 0, 4 / 6, 0, 0⟩ : Transform), 1⟩ := by
    refine ⟨?_, by norm_num, ?_, ?_⟩
    · intro c hc
      simp only [boxDrawing, bendDrawing, bendCmds, List.mem_cons, List.not_mem_nil, or_false] at hc
      rcases hc with rfl | rfl | rfl <;> decide
    · rw [show boxDrawing.cmds = bendCmds from rfl, bend_extent.2]; norm_num
    · intro i
      unfold Size.error Size.reach
      rw [show boxDrawing.cmds = bendCmds from rfl, bend_extent.2, bend_extent.1]
      cases i <;> norm_num [Transform.identity]
  obtain ⟨p0, rest, h1, h2⟩ := C98_document double C90_double lib hl (keepOf none) boxDoc [boxDrawing] (by simp) (by simpa using hv)
    box_paths _ box_sizes _ (.cons hr .nil)
  rcases hq : linesOf p0 rest with _ | ⟨γ₁, _ | ⟨γ₂, _ | ⟨γ₃, r⟩⟩⟩
  · rw [hq] at h2; simp [picture, boxDrawing, bendDrawing, moved] at h2
  · rw [hq] at h2; simp [picture, boxDrawing, bendDrawing, moved] at h2
  · rw [hq] at h2
    simp only [picture, boxDrawing, bendDrawing, moved, List.flatMap_cons, List.flatMap_nil, List.append_nil, List.map_cons, List.map_nil,
      List.forall₂_cons] at h2
    obtain ⟨g1, g2, -⟩ := h2
    refine ⟨p0, γ₁, γ₂, rest, h1, hq, ?_, ?_, ?_, ?_⟩
    · have := g1 (1 / 2) (by norm_num) (by norm_num) .x
      norm_num [coord, Svg.cubic, Svg.quadratic, Svg.line, Transform.identity] at this ⊢
      exact this
    · have := g1 (1 / 2) (by norm_num) (by norm_num) .y
      norm_num [coord, Svg.cubic, Svg.quadratic, Svg.line, Transform.identity] at this ⊢
      exact this
    · have := g2 1 (by norm_num) (by norm_num) .x
      norm_num [coord, Svg.line, Transform.identity] at this ⊢
      exact this
    · have := g2 1 (by norm_num) (by norm_num) .y
      norm_num [coord, Svg.line, Transform.identity] at this ⊢
      exact this
  · rw [hq] at h2; simp [picture, boxDrawing, bendDrawing, moved] at h2

end StepperPaths.Props
