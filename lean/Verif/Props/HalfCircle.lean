import Verif.Props.RoundedSvg

/-! # C99: half circles are refused because of rounding -/

namespace StepperPaths.Props
open Coords Context Spec Draw Program StepperPaths.Svg Spec.Svg Rounded

/-- A rounded value from its magnitude and the nearest multiple of the unit in the last place. -/
theorem double_eq {x : ℝ} {e n : ℤ} (h1 : (2 : ℝ) ^ e ≤ |x|) (h2 : |x| < 2 ^ (e + 1)) (he : -1022 ≤ e)
    (h3 : |x / 2 ^ (e - 52) - n| < 1 / 2) : double x = n * 2 ^ (e - 52) := by
  have hx : 0 < |x| := lt_of_lt_of_le (by positivity) h1
  have l1 := (Int.zpow_le_iff_le_log (b := 2) (by norm_num) (x := e) hx).1 (by exact_mod_cast h1)
  have l2 := (Int.lt_zpow_iff_log_lt (b := 2) (by norm_num) (x := e + 1) hx).1 (by exact_mod_cast h2)
  have hl : Int.log 2 |x| = e := by omega
  unfold double
  simp only [hl, max_eq_left he]
  congr 2
  rw [abs_lt] at h3
  have h4 := nearestEven_near (x / 2 ^ (e - 52))
  rw [abs_le] at h4
  have g1 : (nearestEven (x / 2 ^ (e - 52)) : ℝ) < n + 1 := by linarith
  have g2 : (n : ℝ) - 1 < nearestEven (x / 2 ^ (e - 52)) := by linarith
  have g3 : nearestEven (x / 2 ^ (e - 52)) < n + 1 := by exact_mod_cast g1
  have g4 : n - 1 < nearestEven (x / 2 ^ (e - 52)) := by exact_mod_cast g2
  omega

/-- `M0,0A31,31,0,0,1,62,0` -/
def halfCmds : List Cmd :=
  [⟨[], 'M', .some [] (int 0) (.cons [','] (int 0) .nil)⟩,
   ⟨[], 'A', .some [] (two 3 1) (.cons [','] (two 3 1) (.cons [','] (int 0) (.cons [','] (int 0) (.cons [','] (int 1)
      (.cons [','] (two 6 2) (.cons [','] (int 0) .nil))))))⟩]

theorem half_values : (halfCmds.map fun c => (c.letter, c.args.values)) = [('M', [0, 0]), ('A', [31, 31, 0, 0, 1, 62, 0])] := by
  have t31 : (two 3 1).value = 31 := by simp [two, Num.value, Sign.val, Digits.val]; norm_num [Nat.ofDigits]
  have t62 : (two 6 2).value = 62 := by simp [two, Num.value, Sign.val, Digits.val]; norm_num [Nat.ofDigits]
  simp [halfCmds, Args.values, NumList.values, int_value, t31, t62]

/-- A document with this path. -/
def halfDoc : Forest :=
  .elem ⟨"path", some "http://www.w3.org/2000/svg"⟩ [⟨⟨"d", none⟩, pathText halfCmds⟩] .nil .nil

/-- The half circle around (31, 0) from the origin to (62, 0). -/
noncomputable def halfCircle (u : ℝ) : Vec := ⟨31 - 31 * Real.cos (Real.pi * u), -31 * Real.sin (Real.pi * u)⟩

noncomputable def halfDrawing : Drawing := ⟨.identity, halfCmds, [], [halfCircle]⟩

theorem half_valid : halfDrawing.Valid := by
  have v2 : ∀ a b, (two a b).Valid := fun a b => ⟨by simp [two], by simp [two]⟩
  have hs : Separator [','] := .inr ⟨[], [], by simp [Blank], by simp [Blank], rfl⟩
  refine ⟨?_, by simp [halfDrawing, White], ⟨halfCmds[0], rfl, .inr rfl⟩, ?_, fun _ => ⟨1, 0, by norm_num, ?_⟩⟩
  · intro c hc
    simp only [halfDrawing, halfCmds, List.mem_cons, List.not_mem_nil, or_false] at hc
    rcases hc with rfl | rfl
    · exact ⟨by simp [White], by decide, by simp [Blank], int_valid _, hs, int_valid _, trivial⟩
    · exact ⟨by simp [White], by decide, by simp [Blank], v2 _ _, hs, v2 _ _, hs, int_valid _, hs, int_valid _, hs, int_valid _, hs, v2 _ _,
        hs, int_valid _, trivial⟩
  · have hv : halfDrawing.values = [('M', [0, 0]), ('A', [31, 31, 0, 0, 1, 62, 0])] := by
      have := congrArg (List.map fun c : Char × List ℚ => (c.1, c.2.map fun q : ℚ => (q : ℝ))) half_values
      rw [List.map_map] at this
      rw [show halfDrawing.values = _ from this]
      simp
    rw [hv]
    have hpi := Real.pi_pos
    refine .move (.arc ⟨by norm_num, by simp, Real.pi, 2 * Real.pi, fun u => ?_, ?_, ?_, ?_, ?_, ?_⟩ (.nil _ _ _))
    · have e1 : Real.pi + (2 * Real.pi - Real.pi) * u = Real.pi * u + Real.pi := by ring
      rw [e1, Real.cos_add_pi, Real.sin_add_pi, Real.cos_pi, Real.sin_pi]
      simp only [halfCircle]
      ext <;> simp only <;> ring
    · simp only [halfCircle, mul_one, Real.cos_pi, Real.sin_pi]
      ext <;> norm_num
    · simp only [ne_eq, one_ne_zero, not_false_eq_true, iff_true]
      linarith
    · rw [abs_of_pos (by linarith)]; linarith
    · intro h; exact absurd rfl h
    · intro _
      rw [abs_of_pos (by linarith)]; linarith
  · simp [halfDrawing, Transform.identity]

/-- The numbers of the computation. -/
theorem half_numbers : ∃ A R : ℝ, double (1 / 961) = A ∧ double A = A ∧ 0 < A ∧ double √(double (1 / A)) = R ∧
    double (R * R) = 961 - 1 / 2 ^ 42 := by
  have h1 : double (1 / 961) = (4798840810018094 : ℤ) * 2 ^ ((-10 : ℤ) - 52) := by
    refine double_eq ?_ ?_ (by norm_num) ?_
    · rw [abs_of_pos (by norm_num)]; norm_num
    · rw [abs_of_pos (by norm_num)]; norm_num
    · rw [abs_lt]; norm_num
  have h2 : double (1 / ((4798840810018094 : ℤ) * 2 ^ ((-10 : ℤ) - 52))) = (8453045394341887 : ℤ) * 2 ^ ((9 : ℤ) - 52) := by
    refine double_eq ?_ ?_ (by norm_num) ?_
    · rw [abs_of_pos (by positivity)]; norm_num
    · rw [abs_of_pos (by positivity)]; norm_num
    · rw [abs_lt]; norm_num
  have h3 : double √((8453045394341887 : ℤ) * 2 ^ ((9 : ℤ) - 52)) = (8725724278030335 : ℤ) * 2 ^ ((4 : ℤ) - 52) := by
    have l : (31 - 11 / 10 / 2 ^ 48 : ℝ) ≤ √((8453045394341887 : ℤ) * 2 ^ ((9 : ℤ) - 52)) := by
      apply Real.le_sqrt_of_sq_le
      norm_num
    have u : √((8453045394341887 : ℤ) * 2 ^ ((9 : ℤ) - 52)) ≤ (31 - 1 / 2 ^ 49 - 1 / 100 / 2 ^ 48 : ℝ) := by
      apply Real.sqrt_le_iff.2
      norm_num
    have pos : 0 ≤ √((8453045394341887 : ℤ) * 2 ^ ((9 : ℤ) - 52)) := Real.sqrt_nonneg _
    generalize √((8453045394341887 : ℤ) * 2 ^ ((9 : ℤ) - 52)) = s at l u pos
    refine double_eq ?_ ?_ (by norm_num) ?_
    · rw [abs_of_nonneg pos]
      refine le_trans ?_ l
      norm_num
    · rw [abs_of_nonneg pos]
      refine lt_of_le_of_lt u ?_
      norm_num
    · have e : (2 : ℝ) ^ ((4 : ℤ) - 52) = 1 / 2 ^ 48 := by norm_num
      rw [e, div_div_eq_mul_div, div_one, abs_lt]
      push_cast
      constructor
      · nlinarith
      · nlinarith
  have h4 : double (((8725724278030335 : ℤ) * 2 ^ ((4 : ℤ) - 52)) * ((8725724278030335 : ℤ) * 2 ^ ((4 : ℤ) - 52))) =
      (8453045394341886 : ℤ) * 2 ^ ((9 : ℤ) - 52) := by
    refine double_eq ?_ ?_ (by norm_num) ?_
    · rw [abs_of_pos (by positivity)]; norm_num
    · rw [abs_of_pos (by positivity)]; norm_num
    · rw [abs_lt]; norm_num
  refine ⟨_, _, h1, ?_, by positivity, by rw [h2], ?_⟩
  · exact double_exact (by norm_num) (by norm_num)
  · rw [h3, h4]; norm_num

/-- The arc is refused. -/
theorem half_refused (lib : Lib) (h0 : lib.sin 0 = 0) (h1 : lib.cos 0 = 1) (h2 : lib.atan2 0 0 = 0) :
    arcSegF double lib .identity ⟨62, 0⟩ ⟨31, 31, 0, False, True⟩ = some (.error .ellipseTooSmall) := by
  obtain ⟨A, R, e1, e2, hA, e3, e4⟩ := half_numbers
  have i : ∀ n : ℤ, |n| ≤ 2 ^ 53 → double n = n := C90_double.int
  have z : double 0 = 0 := by simpa using i 0 (by norm_num)
  have o : double 1 = 1 := by simpa using i 1 (by norm_num)
  have n1 : double (-1) = -1 := by simpa using i (-1) (by norm_num)
  have n961 : double 961 = 961 := by simpa using i 961 (by norm_num)
  have n62 : double 62 = 62 := by simpa using i 62 (by norm_num)
  have n3844 : double 3844 = 3844 := by simpa using i 3844 (by norm_num)
  have small : double (1 / 2 ^ 42) = 1 / 2 ^ 42 := by
    have := double_exact (k := 1) (j := -42) (by norm_num) (by norm_num)
    rw [show ((1 : ℤ) : ℝ) * 2 ^ (-42 : ℤ) = 1 / 2 ^ 42 by norm_num] at this
    exact this
  have form : ellipseFormF double lib 31 31 0 = ⟨A, 0, 0, A⟩ := by
    simp only [ellipseFormF, h0, h1]
    norm_num [z, o, n961, e1, e2]
  have inv : invert2x2F double ⟨1, 0, 0, 1⟩ = some ⟨1, 0, 0, 1⟩ := by
    simp [invert2x2F, z, o]
  have axes : formAxesF double lib ⟨A, 0, 0, A⟩ = some (R, R, 0) := by
    simp [formAxesF, h0, h1, h2, z, o, e2, not_le.2 hA]
    simpa using e3
  have tr : transformEllipseF double lib 31 31 0 ⟨1, 0, 0, 1⟩ = some (R, R, 0) := by
    unfold transformEllipseF
    rw [inv, form]
    simp [mul2x2F, transpose2x2, z, e2, axes]
  have ch : chordF double R R 62 0 = none := by
    unfold chordF
    rw [if_pos (by norm_num)]
    have hne : (961 - 1 / 2 ^ 42 : ℝ) ≠ 0 := by norm_num
    have e5 : double (-(1 / 2 ^ 42)) = -(1 / 2 ^ 42) := by rw [double_neg, small]
    simp only [chordFlatF, zero_div, z, e4, div_self hne, o, mul_zero, add_zero, one_mul, n62, zero_sub, n1]
    rw [show (62 * 62 : ℝ) = 3844 by norm_num, n3844, show (3844 / 4 : ℝ) = 961 by norm_num, n961,
      show (961 - (961 - 1 / 2 ^ 42) : ℝ) = 1 / 2 ^ 42 by ring, small, div_neg, div_one, e5, if_pos (by norm_num)]
  unfold arcSegF
  rw [if_neg (by norm_num)]
  simp only [Transform.identity, tr, Option.bind_some, h0, h1]
  norm_num [z, n62, ch]

/-- C99: half circles may be refused.  This document has one, and in exact arithmetic it is parsed to it, but with `f64` the radius
of the transformed circle comes out a little too small for its end points, and the document is refused. -/
theorem C99_half_circle (lib : Lib) (h0 : lib.sin 0 = 0) (h1 : lib.cos 0 = 1) (h2 : lib.atan2 0 0 = 0) :
    (∃ p0 rest, parseDocument noFilter .identity halfDoc.events = some (.ok (.goTo p0 :: rest)) ∧ linesOf p0 rest = [halfCircle]) ∧
    parseDocumentF double lib noFilter .identity halfDoc.events = some .err := by
  constructor
  · obtain ⟨p0, rest, e1, e2⟩ := C95_document noFilter halfDoc [halfDrawing] (by simp) (by simpa using half_valid)
      (by simp [halfDoc, Forest.paths, noFilter, inside, texts, halfDrawing, Drawing.text])
    refine ⟨p0, rest, e1, ?_⟩
    rw [e2]
    simp [picture, moved, halfDrawing, Transform.identity]
  · have i : ∀ n : ℤ, |n| ≤ 2 ^ 53 → double n = n := C90_double.int
    have z : double 0 = 0 := by simpa using i 0 (by norm_num)
    have o : double 1 = 1 := by simpa using i 1 (by norm_num)
    have n31 : double 31 = 31 := by simpa using i 31 (by norm_num)
    have n62 : double 62 = 62 := by simpa using i 62 (by norm_num)
    have hv : (halfCmds.map fun c => (c.letter, c.args.values.map fun q : ℚ => double (q : ℝ))) =
        [('M', [0, 0]), ('A', [31, 31, 0, 0, 1, 62, 0])] := by
      have := congrArg (List.map fun c : Char × List ℚ => (c.1, c.2.map fun q : ℚ => double (q : ℝ))) half_values
      rw [List.map_map] at this
      rw [show (halfCmds.map fun c => (c.letter, c.args.values.map fun q : ℚ => double (q : ℝ))) = _ from this]
      simp [z, o, n31, n62]
    have hb : ∃ s, Acc.buildAllF double lib .identity true [('M', [0, 0]), ('A', [31, 31, 0, 0, 1, 62, 0])] .new =
        some (.error .ellipseTooSmall, s) := by
      have := half_refused lib h0 h1 h2
      simp only [Acc.buildAllF, buildPathF, checkArgs, moveCmdF, moveFirstF, lineLoopF, arcLoopF]
      simp [targetF, PathState.push, PathState.new, PathState.noControl, tapply, Transform.identity, Rounded.vsub, z, n62]
      simp [Transform.identity] at this
      simp [this]
    obtain ⟨s, hb⟩ := hb
    rw [← hv] at hb
    have hp := Acc.pathLoopF_cmds (t := []) .identity halfCmds half_valid.cmds (by simp [White]) true .new s hb
    rw [List.append_nil] at hp
    unfold parseDocumentF halfDoc
    simp [Forest.events, docLoopF, docStepF, noFilter, svgNs, collectAllF, collectF, parsePathF, hp]

/-- The functions of the library are exact at zero. -/
example : exactLib.sin 0 = 0 ∧ exactLib.cos 0 = 1 ∧ exactLib.atan2 0 0 = 0 := by
  refine ⟨by simp [exactLib], by simp [exactLib], ?_⟩
  exact Complex.arg_zero

end StepperPaths.Props
