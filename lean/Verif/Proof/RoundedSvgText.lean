import Verif.Spec.RoundedSvg
import Verif.Proof.SvgText

/-! The two ways of reading transforms and lengths agree. -/

namespace StepperPaths.Rounded
open Coords Draw StepperPaths.Svg StepperPaths.Svg.Parser

/-! ### Parsers -/

section
variable {α β γ δ : Type}

theorem map_map (p : Parser α) (f : α → β) (h : β → γ) : (p.map f).map h = p.map fun a => h (f a) := by
  funext i; simp [Parser.map, Function.comp_def]

theorem alt_map (p q : Parser α) (f : α → β) : (alt p q).map f = alt (p.map f) (q.map f) := by
  funext i
  simp only [Parser.map, alt]
  cases p i <;> simp

theorem delimited_map (p : Parser α) (q : Parser β) (r : Parser γ) (f : β → δ) :
    (delimited p q r).map f = delimited p (q.map f) r := by
  funext i
  simp only [Parser.map, delimited, preceded, terminated, pair]
  cases p i with
  | none => rfl
  | some v =>
    simp only [Option.bind_some]
    cases q v.1 with
    | none => rfl
    | some w =>
      simp only [Option.bind_some, Option.map_some]
      cases r w.1 <;> rfl

theorem preceded_map (p : Parser α) (q : Parser β) (f : β → δ) :
    (preceded p q).map f = preceded p (q.map f) := by
  funext i
  simp only [Parser.map, preceded, pair]
  cases p i with
  | none => rfl
  | some v =>
    simp only [Option.bind_some]
    cases q v.1 <;> rfl

end

/-! ### Transforms -/

/-- The exact value of a call. -/
noncomputable def Fn.eval : Fn → Transform
  | .matrix a b c d e f => ⟨a, b, c, d, e, f⟩
  | .translate x y => ⟨1, 0, 0, 1, x, (y.getD 0 : ℚ)⟩
  | .scale x y => ⟨x, 0, 0, (y.getD x : ℚ), 0, 0⟩
  | .rotate a (some (cx, cy)) => Transform.rotateAround (radians a) ⟨cx, cy⟩
  | .rotate a none => Transform.rotate (radians a)
  | .skewX a => Transform.skewX (radians a)
  | .skewY a => Transform.skewY (radians a)

/-- The exact product. -/
noncomputable def evalAll : List Fn → Transform
  | [] => .identity
  | [a] => a.eval
  | a :: b :: l => a.eval * evalAll (b :: l)

theorem fn_eval : fn.map Fn.eval = Svg.transform := by
  unfold fn Svg.transform
  simp only [alt_map, delimited_map, map_map]
  unfold Svg.matrix Svg.translate Svg.scale Svg.rotate Svg.skewX Svg.skewY
  congr 3
  congr 1
  congr 1
  congr 1
  funext ⟨a, c⟩
  rcases c with _ | ⟨x, y⟩ <;> rfl

theorem fns_ne {i rest : List Char} {l : List Fn} (h : fns i = some (rest, l)) : l ≠ [] := by
  rw [fns] at h
  simp only at h
  cases hf : fn i with
  | none => rw [hf] at h; simp at h
  | some v =>
    rw [hf] at h
    simp only [Option.bind_some, Option.map_some] at h
    cases hc : commaWsp v.1 with
    | none => rw [hc] at h; simp at h; rw [← h.2]; simp
    | some w =>
      rw [hc] at h
      simp only [Option.bind_some] at h
      by_cases hl : w.1.length < i.length
      · rw [if_pos hl] at h
        cases hn : fns w.1 with
        | none => rw [hn] at h; simp at h; rw [← h.2]; simp
        | some u => rw [hn] at h; simp at h; rw [← h.2]; simp
      · rw [if_neg hl] at h; simp at h; rw [← h.2]; simp

theorem fns_eval (i : List Char) : Svg.transforms i = (fns i).map fun r => (r.1, evalAll r.2) := by
  induction hlen : i.length using Nat.strong_induction_on generalizing i with
  | _ k ih =>
    rw [Svg.transforms, fns]
    have ht : Svg.transform i = (fn i).map fun r => (r.1, r.2.eval) := by rw [← fn_eval]; rfl
    simp only [ht]
    cases fn i with
    | none => rfl
    | some v =>
      obtain ⟨i1, a⟩ := v
      simp only [Option.map_some, Option.bind_some]
      cases commaWsp i1 with
      | none => rfl
      | some w =>
        simp only [Option.bind_some]
        by_cases hl : w.1.length < i.length
        · rw [if_pos hl, if_pos hl, ih _ (by omega) w.1 rfl]
          cases hn : fns w.1 with
          | none => rfl
          | some u =>
            obtain ⟨r, l⟩ := u
            have := fns_ne hn
            match l with
            | b :: l => rfl
        · rw [if_neg hl, if_neg hl]; rfl

theorem calls_ne {s : List Char} {l : List Fn} (h : calls s = some l) : l ≠ [] := by
  unfold calls at h
  rw [Option.map_eq_some_iff] at h
  obtain ⟨⟨r, l'⟩, h, rfl⟩ := h
  simp only [preceded, Parser.map, pair, Option.map_eq_some_iff, Option.bind_eq_some_iff] at h
  obtain ⟨_, ⟨_, _, _, h1, rfl⟩, h2⟩ := h
  simp only [Prod.mk.injEq] at h2
  obtain ⟨rfl, rfl⟩ := h2
  exact fns_ne h1

theorem calls_eval (s : List Char) : parseTransform s = (calls s).map evalAll := by
  unfold parseTransform calls transformList
  have : (fun i => Svg.transforms i) = Parser.map fns evalAll := by
    funext i; rw [fns_eval]; rfl
  have e : preceded wspOpt Svg.transforms = (preceded wspOpt fns).map evalAll := by
    rw [preceded_map]; exact congrArg _ this
  rw [e]
  simp [Parser.map, Function.comp_def]

/-! ### Lengths -/

/-- The exact values of the units. -/
def LengthUnit.val : LengthUnit → ℚ
  | .mm => 1
  | .cm => 10
  | .inch => Svg.inch
  | .px => Svg.px
  | .pt => Svg.pt
  | .pc => Svg.pt * 12

/-- The exact value of a length. -/
def lengthVal : ℚ × Option LengthUnit → ℚ
  | (v, some u) => v * u.val
  | (v, none) => v

theorem unit_val : lengthUnitName.map LengthUnit.val = Svg.lengthUnit := by
  unfold lengthUnitName Svg.lengthUnit
  simp only [alt_map, value, map_map]
  rfl

theorem opt_map {α β : Type} (p : Parser α) (f : α → β) : (opt p).map (Option.map f) = opt (p.map f) := by
  funext i
  simp only [Parser.map, opt]
  cases p i <;> rfl

theorem terminated_map {α β γ : Type} (p : Parser α) (q : Parser β) (f : α → γ) :
    (terminated p q).map f = terminated (p.map f) q := by
  funext i
  simp only [Parser.map, terminated, pair]
  cases p i with
  | none => rfl
  | some v =>
    simp only [Option.bind_some, Option.map_some]
    cases q v.1 <;> rfl

theorem lengthParts_val (s : List Char) : parseLength s = (lengthParts s).map lengthVal := by
  unfold parseLength lengthParts physicalLength
  rw [← unit_val, ← terminated_map, ← opt_map]
  simp only [Parser.map, pair]
  cases wspOpt s with
  | none => rfl
  | some a =>
    simp only [Option.bind_some]
    cases number a.1 with
    | none => rfl
    | some b =>
      simp only [Option.bind_some]
      cases wspOpt b.1 with
      | none => rfl
      | some c =>
        simp only [Option.bind_some]
        cases opt (terminated lengthUnitName wspOpt) c.1 with
        | none => rfl
        | some d =>
          obtain ⟨r, _ | u⟩ := d <;> rfl

end StepperPaths.Rounded
