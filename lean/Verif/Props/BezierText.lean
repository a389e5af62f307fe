import Verif.Model.BezierText
import Verif.Spec.BezierText
import Verif.Spec.BezierShape
import Verif.Props.Bezier
import Verif.Props.SvgText
import Verif.Props.RoundedSvg
import Verif.Proof.RoundedDoc
import Verif.Proof.Double
import Verif.Props.Rounded

/-! The text of a Bezier segment is read as this segment (C111). -/

namespace StepperPaths.Props
open StepperPaths Coords Curves Draw Spec Spec.Svg Rounded StepperPaths.Svg StepperPaths.Svg.Parser

/-- The six numbers in the text of a segment. -/
noncomputable def textNumbers (fl : ℝ → ℝ) (b : BezierSegment) : List ℝ :=
  [b.c1.x, b.c1.y, fl (b.c2.x + b.p2.x), fl (b.c2.y + b.p2.y), b.p2.x, b.p2.y]

/-- C111: the text of a segment is a command `c` with six numbers: both control points and the end,
relative to the start. -/
theorem C111_text (fl : ℝ → ℝ) (disp : ℝ → List Char) (b : BezierSegment) (h : ∀ x ∈ textNumbers fl b, Shows fl disp x) :
    ∃ c : Cmd, c.Valid ∧ b.toSvgPath fl disp = c.text ∧ c.letter = 'c' ∧
      (c.args.values.map fun q : ℚ => fl (q : ℝ)) = textNumbers fl b := by
  simp only [textNumbers, List.mem_cons, List.not_mem_nil, or_false, forall_eq_or_imp, forall_eq] at h
  obtain ⟨⟨n1, v1, t1, x1⟩, ⟨n2, v2, t2, x2⟩, ⟨n3, v3, t3, x3⟩, ⟨n4, v4, t4, x4⟩, ⟨n5, v5, t5, x5⟩, ⟨n6, v6, t6, x6⟩⟩ := h
  have comma : Separator [','] := .inr ⟨[], [], by simp [Blank], by simp [Blank], rfl⟩
  have space : Separator [' '] := .inl ⟨by simp [Blank], by simp⟩
  refine ⟨⟨[], 'c', .some [] n1 (.cons [','] n2 (.cons [' '] n3 (.cons [','] n4 (.cons [' '] n5 (.cons [','] n6 .nil)))))⟩,
    ⟨by simp [White], by simp [pathLetters], by simp [Blank], v1, comma, v2, space, v3, comma, v4, space, v5, comma, v6, trivial⟩,
    ?_, rfl, ?_⟩
  · simp [BezierSegment.toSvgPath, Cmd.text, Args.text, NumList.text, t1, t2, t3, t4, t5, t6]
  · simp [textNumbers, Args.values, NumList.values, x1, x2, x3, x4, x5, x6]

/-- The command `c` with the numbers of a segment. -/
theorem build_segment (b : BezierSegment) (tr : Transform) (first : Bool) (s : PathState) :
    ∃ s' p2 c1 c2, buildPath 'c' (textNumbers id b) tr first s = some (.ok (), s') ∧
      s'.segs = s.segs ++ [.curveTo p2 c1 c2] ∧ s'.pos = s.pos + b.p2 ∧ s'.start = s.start ∧ p2 = tr * (s.pos + b.p2) ∧
      ∀ t, tr * s.pos + ((bezierOf (tr * s.pos) p2 c1 c2).bezierValue t).1 = tr * (s.pos + b.point t) := by
  simp only [textNumbers, id, buildPath, checkArgs, List.length_cons, List.length_nil, cubicLoop, offset]
  refine ⟨_, _, _, _, rfl, rfl, ?_, rfl, ?_, fun t => ?_⟩
  · ext <;> simp [PathState.push, add_comm]
  · congr 1
    ext <;> simp [add_comm]
  · simp only [C42_point, bezierOf, bernstein, BezierSegment.point]
    ext <;> simp <;> ring

/-- C111: read without rounding, from any point and with any transform, the text gives one curve, and
this curve is the transformed segment, point by point; the next command starts at its end. -/
theorem C111_exact (disp : ℝ → List Char) (b : BezierSegment) (h : ∀ x ∈ textNumbers id b, Shows id disp x)
    (tr : Transform) (s : PathState) :
    ∃ s' p2 c1 c2, parsePath (b.toSvgPath id disp) tr s = some (.done (.ok ()) s') ∧
      s'.segs = s.segs ++ [.curveTo p2 c1 c2] ∧ s'.pos = s.pos + b.p2 ∧ s'.start = s.start ∧ p2 = tr * (s.pos + b.p2) ∧
      ∀ t, tr * s.pos + ((bezierOf (tr * s.pos) p2 c1 c2).bezierValue t).1 = tr * (s.pos + b.point t) := by
  obtain ⟨c, hv, ht, hl, hx⟩ := C111_text id disp b h
  have key := C52_path [c] (by simpa using hv) [] (by simp [White]) tr s
  simp only [pathText, List.flatMap_cons, List.flatMap_nil, List.append_nil, List.map_cons, List.map_nil, hl] at key
  simp only [id] at hx
  obtain ⟨s', p2, c1, c2, g, rest⟩ := build_segment b tr true s
  refine ⟨s', p2, c1, c2, ?_, rest⟩
  rw [ht, key, hx]
  simp only [buildAll, g]

/-- C111: the texts of the two parts of `split(t)`, one after the other, are read as two curves that
trace the segment: the first one up to the parameter `t`, the second one from there on. -/
theorem C111_split (disp : ℝ → List Char) (b : BezierSegment) (t : ℝ)
    (h1 : ∀ x ∈ textNumbers id (b.split t).1, Shows id disp x) (h2 : ∀ x ∈ textNumbers id (b.split t).2, Shows id disp x)
    (tr : Transform) (s : PathState) :
    ∃ s' p2 c1 c2 q2 d1 d2,
      parsePath ((b.split t).1.toSvgPath id disp ++ (b.split t).2.toSvgPath id disp) tr s = some (.done (.ok ()) s') ∧
      s'.segs = s.segs ++ [.curveTo p2 c1 c2, .curveTo q2 d1 d2] ∧ s'.pos = s.pos + b.p2 ∧ s'.start = s.start ∧
      p2 = tr * (s.pos + b.point t) ∧
      (∀ u, tr * s.pos + ((bezierOf (tr * s.pos) p2 c1 c2).bezierValue u).1 = tr * (s.pos + b.point (t * u))) ∧
      ∀ u, p2 + ((bezierOf p2 q2 d1 d2).bezierValue u).1 = tr * (s.pos + b.point (t + (1 - t) * u)) := by
  have e2 := fun u => (C42_split b t u).2
  have e1 := fun u => (C42_split b t u).1
  have end1 : (b.split t).1.p2 = b.point t := by
    ext <;> simp [BezierSegment.split, BezierSegment.point] <;> ring
  have end2 : b.point t + (b.split t).2.p2 = b.p2 := by
    ext <;> simp [BezierSegment.split, BezierSegment.point] <;> ring
  have assoc : ∀ x y z : Vec, x + y + z = x + (y + z) := fun x y z => by ext <;> simp [add_assoc]
  obtain ⟨c, hv, ht, hl, hx⟩ := C111_text id disp _ h1
  obtain ⟨c', hv', ht', hl', hx'⟩ := C111_text id disp _ h2
  have key := C52_path [c, c'] (by simp [hv, hv']) [] (by simp [White]) tr s
  simp only [pathText, List.flatMap_cons, List.flatMap_nil, List.append_nil, List.map_cons, List.map_nil, hl, hl'] at key
  simp only [id] at hx hx'
  obtain ⟨s1, p2, c1, c2, g1, a1, a2, a3, a4, a5⟩ := build_segment (b.split t).1 tr true s
  obtain ⟨s2, q2, d1, d2, g2, b1, b2, b3, b4, b5⟩ := build_segment (b.split t).2 tr false s1
  rw [end1] at a2 a4
  rw [a2, ← a4] at b5
  refine ⟨s2, p2, c1, c2, q2, d1, d2, ?_, ?_, ?_, ?_, a4, fun u => ?_, fun u => ?_⟩
  · rw [ht, ht', key, hx, hx']
    simp only [buildAll, g1, g2]
  · rw [b1, a1]; simp
  · rw [b2, a2, assoc, end2]
  · rw [b3, a3]
  · rw [a5, e1]
  · rw [b5, assoc, e2]

/-- C111: read with rounding at the origin, the text gives back the start direction and the end exactly;
the second control point is the rounded difference of the rounded sum that is written. -/
theorem C111_rounded (fl : ℝ → ℝ) (R : FloatRounding fl) (disp : ℝ → List Char) (b : BezierSegment)
    (h : ∀ x ∈ textNumbers fl b, Shows fl disp x) (lib : Lib) (s : PathState) (hs : s.pos = ⟨0, 0⟩) :
    ∃ s', parsePathF fl lib (b.toSvgPath fl disp) .identity s = some (.done (.ok ()) s') ∧ s'.pos = b.p2 ∧ s'.start = s.start ∧
      s'.segs = s.segs ++ [.curveTo b.p2 b.c1
        ⟨fl (fl (b.c2.x + b.p2.x) - b.p2.x), fl (fl (b.c2.y + b.p2.y) - b.p2.y)⟩] := by
  have z : fl 0 = 0 := by simpa using R.int 0 (by norm_num)
  have own : ∀ x ∈ textNumbers fl b, fl x = x := by
    intro x hx
    obtain ⟨n, -, -, e⟩ := h x hx
    rw [← e, R.idem]
  obtain ⟨c, hv, ht, hl, hx⟩ := C111_text fl disp b h
  have key := fun s' r => Rounded.Acc.pathLoopF_cmds (fl := fl) (lib := lib) .identity [c] (by simpa using hv) (t := []) (by simp [White]) true s s'
    (r := r)
  simp only [pathText, List.flatMap_cons, List.flatMap_nil, List.append_nil, List.map_cons, List.map_nil, hl, hx] at key
  rw [ht]
  simp only [textNumbers, List.mem_cons, List.not_mem_nil, or_false, forall_eq_or_imp, forall_eq] at own
  obtain ⟨o1, o2, o3, o4, o5, o6⟩ := own
  obtain ⟨s', g, rest⟩ : ∃ s', Rounded.Acc.buildAllF fl lib .identity true [('c', textNumbers fl b)] s = some (.ok (), s') ∧
      s'.pos = b.p2 ∧ s'.start = s.start ∧ s'.segs = s.segs ++ [.curveTo b.p2 b.c1
        ⟨fl (fl (b.c2.x + b.p2.x) - b.p2.x), fl (fl (b.c2.y + b.p2.y) - b.p2.y)⟩] := by
    simp only [textNumbers, Rounded.Acc.buildAllF, buildPathF, checkArgs, List.length_cons, List.length_nil, cubicLoopF, offset]
    refine ⟨_, rfl, ?_⟩
    simp [PathState.push, hs, Rounded.vadd, Rounded.vsub, tapply, Transform.identity, z, o1, o2, o3, o4, o5, o6]
  exact ⟨s', key _ _ g, rest⟩

/-- C111: the second control point is off by at most four roundings of the largest coordinate. -/
theorem C111_control (fl : ℝ → ℝ) (R : FloatRounding fl) (c p M : ℝ) (hc : |c| ≤ M) (hp : |p| ≤ M) :
    |fl (fl (c + p) - p) - c| ≤ 2⁻¹ ^ 51 * M + 2⁻¹ ^ 1073 := by
  have h1 := R.near (c + p)
  have h2 := R.near (fl (c + p) - p)
  have h3 : |c + p| ≤ 2 * M := (abs_add_le _ _).trans (by linarith)
  have h4 : |fl (c + p) - p| ≤ |c| + |fl (c + p) - (c + p)| := by
    rw [show fl (c + p) - p = c + (fl (c + p) - (c + p)) by ring]
    exact abs_add_le _ _
  have h5 : |fl (fl (c + p) - p) - c| ≤ |fl (fl (c + p) - p) - (fl (c + p) - p)| + |fl (c + p) - (c + p)| := by
    rw [show fl (fl (c + p) - p) - c = fl (fl (c + p) - p) - (fl (c + p) - p) + (fl (c + p) - (c + p)) by ring]
    exact abs_add_le _ _
  have h6 : (2⁻¹ : ℝ) ^ 1073 = 4 * 2⁻¹ ^ 1075 := by
    rw [show (2⁻¹ : ℝ) ^ 1075 = 2⁻¹ ^ 1073 * 2⁻¹ ^ 2 from pow_add _ 1073 2]
    generalize (2⁻¹ : ℝ) ^ 1073 = η
    ring
  have h7 : (0 : ℝ) ≤ 2⁻¹ ^ 1075 := by positivity
  rw [h6]
  generalize (2⁻¹ : ℝ) ^ 1075 = η at *
  norm_num only at *
  nlinarith [abs_nonneg c, abs_nonneg (c + p)]

/-- Every number has digits. -/
theorem exists_digits (n : ℕ) : ∃ d : Digits, d ≠ [] ∧ d.val = n := by
  induction n using Nat.strong_induction_on with
  | _ n ih =>
    rcases lt_or_ge n 10 with h | h
    · exact ⟨[⟨n, h⟩], by simp, by simp [Digits.val]⟩
    · obtain ⟨d, -, h2⟩ := ih (n / 10) (by omega)
      refine ⟨d ++ [⟨n % 10, Nat.mod_lt _ (by norm_num)⟩], by simp, ?_⟩
      simp only [Digits.val] at h2 ⊢
      simp only [List.reverse_append, List.reverse_cons, List.reverse_nil, List.nil_append, List.cons_append, List.map_cons,
        Nat.ofDigits_cons, h2]
      omega

/-- A number times a power of two can be written with all its decimals. -/
theorem exists_num (k j : ℤ) : ∃ n : Num, n.Valid ∧ ((n.value : ℚ) : ℝ) = k * 2 ^ j := by
  obtain ⟨σ, N, hσ⟩ : ∃ (σ : Sign) (N : ℕ), (k : ℝ) = (σ.val : ℝ) * (N : ℝ) := by
    rcases le_or_gt 0 k with q | q
    · refine ⟨.none, k.natAbs, ?_⟩
      have : (k.natAbs : ℤ) = k := Int.natAbs_of_nonneg q
      rw [show (k.natAbs : ℝ) = ((k.natAbs : ℤ) : ℝ) from rfl, this]
      simp [Sign.val]
    · refine ⟨.minus, k.natAbs, ?_⟩
      have : (k.natAbs : ℤ) = -k := by omega
      rw [show (k.natAbs : ℝ) = ((k.natAbs : ℤ) : ℝ) from rfl, this]
      simp [Sign.val]
  rcases le_or_gt 0 j with q | q
  · obtain ⟨d, d1, d2⟩ := exists_digits (N * 2 ^ j.toNat)
    refine ⟨⟨σ, d, none, none⟩, ⟨by simpa using d1, by simp⟩, ?_⟩
    have hj : (2 : ℝ) ^ j = 2 ^ j.toNat := by
      rw [← zpow_natCast, Int.toNat_of_nonneg q]
    simp only [Num.value, d2, hσ, hj]
    simp [Digits.val, mul_assoc]
  · obtain ⟨d, d1, d2⟩ := exists_digits (N * 5 ^ (-j).toNat)
    obtain ⟨f, f1, f2⟩ := exists_digits (-j).toNat
    refine ⟨⟨σ, d, none, some ⟨false, .minus, f⟩⟩, ⟨by simpa using d1, by simpa using f1⟩, ?_⟩
    obtain ⟨m, rfl⟩ : ∃ m : ℕ, j = -m := ⟨(-j).toNat, by omega⟩
    simp only [neg_neg, Int.toNat_natCast] at d2 f2
    have h10 : (10 : ℝ) ^ m = 2 ^ m * 5 ^ m := by rw [← mul_pow]; norm_num
    have hm : Exp.val ⟨false, .minus, f⟩ = -(m : ℤ) := by simp [Exp.val, Sign.val, f2]
    have h0 : Digits.val [] = 0 := by simp [Digits.val]
    simp only [Num.value, d2, hσ, Option.map_some, Option.getD_some, Option.getD_none, hm, h0]
    push_cast
    rw [zpow_neg, zpow_neg, zpow_natCast, zpow_natCast, h10]
    simp only [zero_div, add_zero]
    field_simp

/-- C111: every `f64` can be written, even with all its decimals, so that there are such functions `disp`. -/
theorem C111_display : ∃ disp : ℝ → List Char, (∀ x, double x = x → Shows double disp x) ∧ ∀ k j : ℤ, Shows id disp (k * 2 ^ j) := by
  have key : ∀ x : ℝ, (∃ k j : ℤ, x = k * 2 ^ j) → ∃ n : Num, n.Valid ∧ ((n.value : ℚ) : ℝ) = x := by
    rintro x ⟨k, j, rfl⟩
    exact exists_num k j
  have : Nonempty Num := ⟨⟨.none, [], none, none⟩⟩
  choose! f h1 h2 using key
  refine ⟨fun x => (f x).text, fun x hx => ?_, fun k j => ?_⟩
  · have e : ∃ k j : ℤ, x = k * 2 ^ j := ⟨_, _, hx.symm⟩
    exact ⟨f x, h1 x e, rfl, by rw [h2 x e, hx]⟩
  · exact ⟨f _, h1 _ ⟨k, j, rfl⟩, rfl, h2 _ ⟨k, j, rfl⟩⟩

/-- The segment of the test in bezier_curve.rs, written and read at the origin. -/
example : ∃ disp, ∀ (lib : Lib), ∃ s',
    parsePathF double lib (BezierSegment.toSvgPath double disp ⟨⟨1, 3⟩, ⟨-2, -1⟩, ⟨5, -2⟩⟩) .identity .new = some (.done (.ok ()) s') ∧
      s'.segs = [.curveTo ⟨5, -2⟩ ⟨1, 3⟩ ⟨-2, -1⟩] := by
  obtain ⟨disp, hd, -⟩ := C111_display
  have i : ∀ n : ℤ, |n| ≤ 2 ^ 53 → double n = n := C90_double.int
  have n1 : double 1 = 1 := by simpa using i 1 (by norm_num)
  have n3 : double 3 = 3 := by simpa using i 3 (by norm_num)
  have n5 : double 5 = 5 := by simpa using i 5 (by norm_num)
  have m1 : double (-1) = -1 := by simpa using i (-1) (by norm_num)
  have m2 : double (-2) = -2 := by simpa using i (-2) (by norm_num)
  have m3 : double (-3) = -3 := by simpa using i (-3) (by norm_num)
  have e1 : (-2 : ℝ) + 5 = 3 := by norm_num
  have e2 : (-1 : ℝ) + -2 = -3 := by norm_num
  refine ⟨disp, fun lib => ?_⟩
  obtain ⟨s', h1, -, -, h2⟩ := C111_rounded double C90_double disp ⟨⟨1, 3⟩, ⟨-2, -1⟩, ⟨5, -2⟩⟩
    (by simp [textNumbers, hd, e1, e2, n1, n3, n5, m2, m3]) lib .new rfl
  refine ⟨s', h1, ?_⟩
  rw [h2]
  simp only [e1, e2, n3, m3, PathState.new, List.nil_append]
  norm_num
  exact ⟨m2, m1⟩

/-- The same segment, split in the middle. -/
example : ∃ disp, ∀ (tr : Transform) (s : PathState), ∃ s' p2 c1 c2 q2 d1 d2,
      parsePath (((⟨⟨1, 3⟩, ⟨-2, -1⟩, ⟨5, -2⟩⟩ : BezierSegment).split (1 / 2)).1.toSvgPath id disp ++
        ((⟨⟨1, 3⟩, ⟨-2, -1⟩, ⟨5, -2⟩⟩ : BezierSegment).split (1 / 2)).2.toSvgPath id disp) tr s = some (.done (.ok ()) s') ∧
      s'.segs = s.segs ++ [.curveTo p2 c1 c2, .curveTo q2 d1 d2] ∧ p2 = tr * (s.pos + ⟨17 / 8, -1 / 4⟩) := by
  obtain ⟨disp, -, hd⟩ := C111_display
  have eighth : ∀ (x : ℝ) (k : ℤ), x = k / 8 → Shows id disp x := by
    rintro x k rfl
    have := hd k (-3)
    rwa [zpow_neg, ← div_eq_mul_inv, show (2 : ℝ) ^ (3 : ℤ) = 8 by norm_num] at this
  refine ⟨disp, fun tr s => ?_⟩
  obtain ⟨s', p2, c1, c2, q2, d1, d2, h1, h2, -, -, h3, -⟩ := C111_split disp ⟨⟨1, 3⟩, ⟨-2, -1⟩, ⟨5, -2⟩⟩ (1 / 2)
    (by
      simp only [textNumbers, BezierSegment.split, vec_add, vec_sub, vec_mul, id, List.mem_cons, List.not_mem_nil, or_false,
        forall_eq_or_imp, forall_eq]
      refine ⟨eighth _ 4 ?_, eighth _ 12 ?_, eighth _ 10 ?_, eighth _ 6 ?_, eighth _ 17 ?_, eighth _ (-2) ?_⟩ <;> norm_num)
    (by
      simp only [textNumbers, BezierSegment.split, vec_add, vec_sub, vec_mul, id, List.mem_cons, List.not_mem_nil, or_false,
        forall_eq_or_imp, forall_eq]
      refine ⟨eighth _ 7 ?_, eighth _ (-8) ?_, eighth _ 15 ?_, eighth _ (-18) ?_, eighth _ 23 ?_, eighth _ (-14) ?_⟩ <;> norm_num)
    tr s
  refine ⟨s', p2, c1, c2, q2, d1, d2, h1, h2, ?_⟩
  rw [h3]
  congr 2
  ext <;> simp [BezierSegment.point] <;> norm_num

end StepperPaths.Props
