import Mathlib.Algebra.BigOperators.Group.Finset.Basic
import Mathlib.Tactic.NormNum
import Mathlib.Tactic.Positivity
import Verif.Props.AnyDrawing

/-!
C132: `svg_path` has the laser on for the length of what it draws, divided by the drawing speed, up to about half a tick for each stroke.
-/

namespace StepperPaths.Props
open Coords Curves Context Control Spec Proof IntegerCurve Rounded Config StepperPaths.Cli
open Draw (Seg Past coord)
open Special (Num)

/-- As `DrawsPath`, with the strokes named. -/
def DrawsStrokes (fl : ℝ → ℝ) (e : Rounded.Env) (v : Num) (w : ℤ) (es : List Event) (path : List Seg) (strokes : List (Vec × Curve)) : Prop :=
  ∃ t T p0 err segs n l groups D, Omit (FloatVisited fl e es t T) path segs ∧ FloatIntended e p0 segs n l ∧ groups.flatten = l ∧
    List.Forall₂ (FloatGroup fl e (n * (1 / 1000000 + 1 / 10 ^ 12))) groups (curvesOf D) ∧ strokes = shapes fl e D ∧
    AnyStrokes fl e v w es err t strokes T

/-- The number of ticks in which the laser is on, before tick `N`. -/
def onTicks (w0 : ℤ) (es : List Event) (N : ℕ) : ℕ := ((Finset.range N).filter fun τ => weightAt w0 es τ ≠ 0).card

/-- C132: the laser is on for the sum of the ticks of all strokes of all repetitions, always with the same power. -/
theorem C132_ticks (fl : ℝ → ℝ) (e : Rounded.Env) (v : Num) (w : ℤ) (hw : w ≠ 0) (path : List Seg) (n : ℕ) (es : List Event)
    (h : DrawsOnly fl e v w path n es) :
    ∃ S : List (List (Vec × Curve)), S.length = n ∧ (∀ l ∈ S, DrawsStrokes fl e v w es path l) ∧
      ∀ w0 N, (∀ τ ≥ N, weightAt w0 es τ = 0) →
        onTicks w0 es N = (S.map fun l => (l.map fun s => burnTicks fl s.2.length v).sum).sum ∧
        ∑ τ ∈ Finset.range N, weightAt w0 es τ = w * onTicks w0 es N := by
  obtain ⟨T, h, off⟩ := h
  have key : ∀ {n t T : ℕ}, DrawsTimes fl e v w es path n t T → ∃ S : List (List (Vec × Curve)), S.length = n ∧
      (∀ l ∈ S, DrawsStrokes fl e v w es path l) ∧ ∀ w0,
        ((Finset.Ico t T).filter fun τ => weightAt w0 es τ ≠ 0).card =
          (S.map fun l => (l.map fun s => burnTicks fl s.2.length v).sum).sum ∧
        ∀ τ, t ≤ τ → τ < T → weightAt w0 es τ = 0 ∨ weightAt w0 es τ = w := by
    intro n t T h
    induction h with
    | none => exact ⟨[], rfl, by simp, fun _ => ⟨by simp, fun τ h1 h2 => by omega⟩⟩
    | @again n t t1 T p0 err h1 h2 h3 ih =>
      obtain ⟨S, s1, s2, s3⟩ := ih
      have le1 := DrawsPath.le h2
      have le2 := DrawsTimes.le h3
      obtain ⟨segs, m, l, G, D, k1, k2, k3, k4, k5⟩ := h2
      refine ⟨shapes fl e D :: S, by rw [List.length_cons, s1], ?_, fun w0 => ⟨?_, ?_⟩⟩
      · intro l' hl'
        rcases List.mem_cons.1 hl' with rfl | hl'
        · exact ⟨t, t1, p0, err, segs, m, l, G, D, k1, k2, k3, k4, rfl, k5⟩
        · exact s2 l' hl'
      · rw [List.map_cons, List.sum_cons, ← (s3 w0).1, ← C128_exposure fl e v w hw es err t t1 _ k5 w0, Finset.card_filter, Finset.card_filter,
          Finset.card_filter, Finset.sum_Ico_consecutive _ le1 le2]
      · intro τ g1 g2
        by_cases hc : τ < t1
        · rcases strokes_at k5 w0 τ g1 hc with g | ⟨g, -⟩
          · exact .inl g
          · exact .inr g
        · exact (s3 w0).2 τ (by omega) g2
  obtain ⟨S, s1, s2, s3⟩ := key h
  refine ⟨S, s1, s2, fun w0 N hN => ?_⟩
  have lt : ∀ τ, weightAt w0 es τ ≠ 0 → τ < T ∧ τ < N := fun τ hτ => by
    constructor
    · by_contra hc
      exact hτ (off w0 τ (by omega))
    · by_contra hc
      exact hτ (hN τ (by omega))
  constructor
  · rw [← (s3 w0).1, onTicks]
    congr 1
    ext τ
    rw [Finset.mem_filter, Finset.mem_filter, Finset.mem_range, Finset.mem_Ico]
    exact ⟨fun k => ⟨⟨Nat.zero_le _, (lt τ k.2).1⟩, k.2⟩, fun k => ⟨(lt τ k.2).2, k.2⟩⟩
  · rw [onTicks, ← Finset.sum_filter_of_ne (p := fun τ => weightAt w0 es τ ≠ 0) fun τ _ hτ => hτ, Finset.sum_congr rfl (g := fun _ => w)]
    · rw [Finset.sum_const, nsmul_eq_mul, mul_comm]
    · intro τ hτ
      have := (Finset.mem_filter.1 hτ).2
      exact ((s3 w0).2 τ (Nat.zero_le _) (lt τ this).1).resolve_left this

/-- C132: the number of ticks of a stroke is its length divided by the speed, rounded. -/
theorem C132_stroke (fl : ℝ → ℝ) (R : FloatRounding fl) (length s : ℝ) (h0 : 0 ≤ length) (hs : 0 < s) (h1 : length ≤ 2 ^ 30 * s) :
    |(burnTicks fl length (.fin s) : ℝ) - length / s| ≤ 51 / 100 + 2⁻¹ ^ 53 * (length / s) := by
  have q0 : 0 ≤ length / s := by positivity
  have q1 : length / s ≤ 2 ^ 30 := by rw [div_le_iff₀ hs]; exact h1
  have tiny : (2⁻¹ : ℝ) ^ 1075 ≤ 2⁻¹ ^ 10 := pow_le_pow_of_le_one (by norm_num) (by norm_num) (by norm_num)
  have small : (2⁻¹ : ℝ) ^ 53 ≤ 2⁻¹ ^ 40 := pow_le_pow_of_le_one (by norm_num) (by norm_num) (by norm_num)
  have near := R.near (length / s)
  rw [abs_of_nonneg q0] at near
  rw [burnTicks, Num.div, if_neg hs.ne', Num.round, Num.asI32, Special.trunc_int]
  generalize fl (length / s) = x at *
  generalize length / s = q at *
  generalize (2⁻¹ : ℝ) ^ 1075 = η at *
  have u0 : (0 : ℝ) ≤ 2⁻¹ ^ 53 := by positivity
  generalize (2⁻¹ : ℝ) ^ 53 = u at *
  norm_num at tiny small q1
  have uq : u * q ≤ 1 / 1000 := by nlinarith
  have uq0 : 0 ≤ u * q := by positivity
  rw [abs_le] at near
  by_cases hx : 0 ≤ x
  · rw [Draw.round, if_pos hx]
    have f1 := Int.floor_le (x + 1 / 2)
    have f2 := Int.lt_floor_add_one (x + 1 / 2)
    have f0 : 0 ≤ ⌊x + 1 / 2⌋ := Int.floor_nonneg.2 (by linarith)
    have f3 : ⌊x + 1 / 2⌋ < 2147483647 := by
      rw [Int.floor_lt]
      push_cast
      linarith
    generalize ⌊x + 1 / 2⌋ = k at *
    have : Draw.satI32 k = k := by
      unfold Draw.satI32
      rw [if_neg (by omega), if_neg (by omega)]
    rw [this]
    have e : ((k.toNat : ℕ) : ℝ) = k := by
      have := Int.toNat_of_nonneg f0
      exact_mod_cast this
    rw [e, abs_le]
    constructor <;> linarith
  · have f0 : Draw.round x = 0 := by
      rw [Draw.round, if_neg hx, neg_eq_zero, Int.floor_eq_zero_iff]
      push Not at hx
      exact ⟨by linarith, by linarith⟩
    rw [f0]
    push Not at hx
    have : ((Draw.satI32 0).toNat : ℝ) = 0 := by
      norm_num [Draw.satI32]
    rw [this, abs_le]
    constructor <;> linarith

/-- C132: so the ticks in which the laser is on differ from the sum of the lengths divided by the speed by about half a tick for each stroke at
most. -/
theorem C132_length (fl : ℝ → ℝ) (R : FloatRounding fl) (e : Rounded.Env) (s : ℝ) (hs : 0 < s) (w : ℤ) (hw : w ≠ 0) (path : List Seg) (n : ℕ)
    (es : List Event) (h : DrawsOnly fl e (.fin s) w path n es) :
    ∃ S : List (List (Vec × Curve)), S.length = n ∧ (∀ l ∈ S, DrawsStrokes fl e (.fin s) w es path l) ∧
      ((∀ k ∈ S.flatten, 0 ≤ k.2.length ∧ k.2.length ≤ 2 ^ 30 * s) → ∀ w0 N, (∀ τ ≥ N, weightAt w0 es τ = 0) →
        let length := (S.flatten.map fun k => k.2.length).sum
        |onTicks w0 es N * s - length| ≤ 51 / 100 * s * S.flatten.length + 2⁻¹ ^ 53 * length) := by
  obtain ⟨S, s1, s2, s3⟩ := C132_ticks fl e (.fin s) w hw path n es h
  refine ⟨S, s1, s2, fun hS w0 N hN => ?_⟩
  intro length
  rw [(s3 w0 N hN).1]
  have flat : (S.map fun l => (l.map fun k => burnTicks fl k.2.length (.fin s)).sum).sum =
      (S.flatten.map fun k => burnTicks fl k.2.length (.fin s)).sum := by
    rw [List.map_flatten, List.sum_flatten, List.map_map]
    rfl
  rw [flat]
  clear flat s1 s2 s3
  subst length
  generalize S.flatten = l at *
  induction l with
  | nil => simp
  | cons k l ih =>
    have h1 := ih fun k' hk' => hS k' (.tail _ hk')
    obtain ⟨p0, p1⟩ := hS k (.head _)
    have h2 := C132_stroke fl R k.2.length s p0 hs p1
    have h3 : |(burnTicks fl k.2.length (.fin s) : ℝ) * s - k.2.length| ≤ 51 / 100 * s + 2⁻¹ ^ 53 * k.2.length := by
      have e1 : (burnTicks fl k.2.length (.fin s) : ℝ) * s - k.2.length = (burnTicks fl k.2.length (.fin s) - k.2.length / s) * s := by
        field_simp
      rw [e1, abs_mul, abs_of_pos hs]
      refine (mul_le_mul_of_nonneg_right h2 hs.le).trans_eq ?_
      field_simp
    simp only [List.map_cons, List.sum_cons, List.length_cons]
    rw [Nat.cast_add, Nat.cast_add, Nat.cast_one]
    rw [abs_le] at h1 h3 ⊢
    generalize (2⁻¹ : ℝ) ^ 53 = u at *
    constructor <;> nlinarith [h1.1, h1.2, h3.1, h3.2]

/-- C132: `svg_path` with a device, if the speed is a positive number. -/
theorem C132_svg (fl : ℝ → ℝ) (R : FloatRounding fl) (lib : Lib) (e : Rounded.Env) (cfg : Xy) (o : SvgNumbers) (layer : Option Cli.Arg)
    (doc : List Svg.XmlEvent) (hw : Program.weightOf (o.intensity.getD 5) ≠ 0) (s : ℝ) (hs : 0 < s)
    (hv : Special.drawSpeed fl cfg (o.drawSpeed.map (.ofF64 fl)) = .fin s) (p p' : Port)
    (h : Special.svgAny fl lib e cfg o layer doc (some p) = some (some p')) :
    ∃ es path, Sent es p p' ∧ Rounded.parseDocumentF fl lib (Program.keepOf layer) .identity doc = some (.ok path) ∧
      ∃ S : List (List (Vec × Curve)), S.length = (o.repeats.getD 1).toNat ∧
        (∀ l ∈ S, DrawsStrokes fl { e with stepScale := fun i => (cfg.stepper i).stepsPerMillimeter } (.fin s)
          (Program.weightOf (o.intensity.getD 5)) es path l) ∧
        (∃ N, ∀ w0, ∀ τ ≥ N, weightAt w0 es τ = 0) ∧
        ((∀ k ∈ S.flatten, 0 ≤ k.2.length ∧ k.2.length ≤ 2 ^ 30 * s) → ∀ w0 N, (∀ τ ≥ N, weightAt w0 es τ = 0) →
          let length := (S.flatten.map fun k => k.2.length).sum
          |onTicks w0 es N * s - length| ≤ 51 / 100 * s * S.flatten.length + 2⁻¹ ^ 53 * length) := by
  obtain ⟨es, path, h1, h2, h3⟩ := C128_svg fl R lib e cfg o layer doc p p' h
  rw [hv] at h3
  obtain ⟨S, s1, s2, s3⟩ := C132_length fl R _ s hs _ hw path _ es h3
  obtain ⟨N, -, hN⟩ := h3
  exact ⟨es, path, h1, h2, S, s1, s2, ⟨N, hN⟩, s3⟩

/-! ### Examples -/

/-- The quarter circle and the line of C103, at 20 mm/s and 800 ticks for each second. -/
example (pw : ℝ → ℝ → ℝ) (hpw : FloatPow pw) (lib : Lib) (hlib : FloatLib lib) (hang : FloatAngles lib)
    (hat : ∀ y x, double (lib.atan2 y x) = lib.atan2 y x) (e : Rounded.Env) (he : e.stepScale = fun _ => 80)
    (hf : Searches e) (hC : FloatCurves double pw lib.sin lib.cos e) :
    ∃ p p', Special.svgAny double lib e quickXy ⟨none, none, none, some 1, some 100⟩ none roundDoc.events (some p) = some (some p') ∧
      ∃ es N, Sent es p p' ∧ ∃ strokes : List (Vec × Curve),
        ((∀ k ∈ strokes, 0 ≤ k.2.length ∧ k.2.length ≤ 1000) → |onTicks 0 es N * double (1 / 40) - (strokes.map fun k => k.2.length).sum| ≤
          51 / 100 * double (1 / 40) * strokes.length + 2⁻¹ ^ 53 * (strokes.map fun k => k.2.length).sum) := by
  obtain ⟨p, p', -, h, -⟩ := round_burns pw hpw lib hlib hang hat e he hf hC
  have pos : 1 / 50 ≤ double (1 / 40) := by
    have tiny : (2⁻¹ : ℝ) ^ 1075 ≤ 2⁻¹ ^ 10 := pow_le_pow_of_le_one (by norm_num) (by norm_num) (by norm_num)
    have near := C90_double.near (1 / 40)
    generalize (2⁻¹ : ℝ) ^ 1075 = η at *
    generalize double (1 / 40) = s at *
    rw [abs_le, abs_of_pos (by norm_num)] at near
    norm_num at near tiny
    linarith [near.1]
  have hv : Special.drawSpeed double quickXy none = .fin (double (1 / 40)) := by
    rw [Special.drawSpeed, Option.getD_none, Num.div, if_neg (by norm_num [quickXy])]
    norm_num [quickXy]
  obtain ⟨es, path, h1, -, S, -, -, ⟨N, hN⟩, hS⟩ := C132_svg double C90_double lib e quickXy ⟨none, none, none, some 1, some 100⟩ none _ (by decide)
    (double (1 / 40)) (by linarith) hv p p' h
  refine ⟨p, p', h, es, N, h1, S.flatten, fun hl => hS (fun k hk => ⟨(hl k hk).1, (hl k hk).2.trans ?_⟩) 0 N (hN 0)⟩
  generalize double (1 / 40) = s at *
  linarith

/-- A stroke of 33 mm at 0.3 mm for each tick: 110 ticks. -/
example : burnTicks double 33 (.fin (3 / 10)) = 110 := by
  have h := C132_stroke double C90_double 33 (3 / 10) (by norm_num) (by norm_num) (by norm_num)
  norm_num at h
  rw [abs_le] at h
  have h1 : (109 : ℝ) < burnTicks double 33 (.fin (3 / 10)) := by linarith [h.1]
  have h2 : (burnTicks double 33 (.fin (3 / 10)) : ℝ) < 111 := by linarith [h.2]
  have h1' : 109 < burnTicks double 33 (.fin (3 / 10)) := by exact_mod_cast h1
  have h2' : burnTicks double 33 (.fin (3 / 10)) < 111 := by exact_mod_cast h2
  omega

end StepperPaths.Props
