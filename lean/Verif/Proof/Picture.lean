import Verif.Spec.Picture
import Verif.Props.SvgArc
import Verif.Props.BezierPath

/-! From the commands of a path to segments, and from segments to what is drawn. -/

namespace StepperPaths.Picture
open Coords Curves Context Draw Spec Props StepperPaths.Svg Spec.Svg

/-- Two arcs with the same chord, direction and size are the same. -/
theorem arc_same {a b a' b' : ℝ} (hc : Real.cos b - Real.cos a = Real.cos b' - Real.cos a')
    (hs : Real.sin b - Real.sin a = Real.sin b' - Real.sin a') (hne : Real.cos b - Real.cos a ≠ 0 ∨ Real.sin b - Real.sin a ≠ 0)
    (hd : a < b ↔ a' < b') (ht : |b - a| < 2 * Real.pi) (ht' : |b' - a'| < 2 * Real.pi)
    (hl : Real.pi ≤ |b - a| ∧ Real.pi ≤ |b' - a'| ∨ |b - a| ≤ Real.pi ∧ |b' - a'| ≤ Real.pi) (u : ℝ) :
    Real.cos (a + (b - a) * u) = Real.cos (a' + (b' - a') * u) ∧ Real.sin (a + (b - a) * u) = Real.sin (a' + (b' - a') * u) := by
  have split : ∀ x y : ℝ, Real.cos y - Real.cos x = -2 * Real.sin ((x + y) / 2) * Real.sin ((y - x) / 2) ∧
      Real.sin y - Real.sin x = 2 * Real.sin ((y - x) / 2) * Real.cos ((x + y) / 2) := by
    intro x y
    rw [Real.cos_sub_cos, Real.sin_sub_sin, add_comm y x]
    exact ⟨rfl, rfl⟩
  obtain ⟨c1, s1⟩ := split a b
  obtain ⟨c2, s2⟩ := split a' b'
  set m := (a + b) / 2 with hm
  set h := (b - a) / 2 with hh
  set m' := (a' + b') / 2 with hm'
  set h' := (b' - a') / 2 with hh'
  have hab : |h| = |b - a| / 2 := by rw [hh, abs_div, abs_of_pos (by norm_num : (0 : ℝ) < 2)]
  have hab' : |h'| = |b' - a'| / 2 := by rw [hh', abs_div, abs_of_pos (by norm_num : (0 : ℝ) < 2)]
  have q1 := Real.sin_sq_add_cos_sq m
  have q2 := Real.sin_sq_add_cos_sq m'
  have e1 : Real.sin m * Real.sin h = Real.sin m' * Real.sin h' := by linarith
  have e2 : Real.sin h * Real.cos m = Real.sin h' * Real.cos m' := by linarith
  have sq : Real.sin h ^ 2 = Real.sin h' ^ 2 := by
    calc Real.sin h ^ 2 = (Real.sin m * Real.sin h) ^ 2 + (Real.sin h * Real.cos m) ^ 2 := by
          rw [mul_pow, mul_pow]; linear_combination (-(Real.sin h) ^ 2) * q1
      _ = (Real.sin m' * Real.sin h') ^ 2 + (Real.sin h' * Real.cos m') ^ 2 := by rw [e1, e2]
      _ = Real.sin h' ^ 2 := by rw [mul_pow, mul_pow]; linear_combination (Real.sin h') ^ 2 * q2
  have sabs : ∀ x : ℝ, |x| ≤ Real.pi → |Real.sin x| = Real.sin |x| := by
    intro x hx
    rcases abs_choice x with hx' | hx'
    · have h0 : 0 ≤ x := abs_eq_self.1 hx'
      rw [hx', abs_of_nonneg (Real.sin_nonneg_of_nonneg_of_le_pi h0 (by rwa [hx'] at hx))]
    · rw [hx', Real.sin_neg, abs_of_nonpos]
      have h1 : 0 ≤ Real.sin (-x) := Real.sin_nonneg_of_nonneg_of_le_pi (by rw [← hx']; exact abs_nonneg x) (by rwa [hx'] at hx)
      rw [Real.sin_neg] at h1
      linarith
  have eq1 : Real.sin |h| = Real.sin |h'| := by
    rw [← sabs h (by linarith), ← sabs h' (by linarith)]
    exact (sq_eq_sq_iff_abs_eq_abs _ _).1 sq
  have p0 := Real.pi_pos
  have eq2 : |h| = |h'| := by
    rcases hl with ⟨l1, l2⟩ | ⟨l1, l2⟩
    · have : Real.pi - |h| = Real.pi - |h'| := by
        refine Real.injOn_sin ⟨by linarith, by linarith⟩ ⟨by linarith, by linarith⟩ ?_
        rw [Real.sin_pi_sub, Real.sin_pi_sub, eq1]
      linarith
    · exact Real.injOn_sin ⟨by linarith [abs_nonneg h], by linarith⟩ ⟨by linarith [abs_nonneg h'], by linarith⟩ eq1
  have eq3 : h = h' := by
    by_cases hp : a < b
    · have hp' := hd.1 hp
      rwa [abs_of_nonneg (by rw [hh]; linarith), abs_of_nonneg (by rw [hh']; linarith)] at eq2
    · have hp' : b' ≤ a' := not_lt.1 fun x => hp (hd.2 x)
      rw [not_lt] at hp
      rw [abs_of_nonpos (by rw [hh]; linarith), abs_of_nonpos (by rw [hh']; linarith)] at eq2
      linarith
  have hne' : Real.sin h ≠ 0 := by
    intro h0
    rw [c1, s1, h0] at hne
    simp at hne
  rw [← eq3] at e1 e2
  have f1 : Real.sin m = Real.sin m' := mul_right_cancel₀ hne' e1
  have f2 : Real.cos m = Real.cos m' := mul_left_cancel₀ hne' e2
  have g1 : a + (b - a) * u = m + h * (2 * u - 1) := by rw [hm, hh]; ring
  have g2 : a' + (b' - a') * u = m' + h * (2 * u - 1) := by rw [eq3, hm', hh']; ring
  rw [g1, g2, Real.cos_add, Real.cos_add, Real.sin_add, Real.sin_add, f1, f2]
  exact ⟨rfl, rfl⟩

theorem turns_similar {tr : Transform} (h : Turns tr) : ∃ k, 0 < k ∧ Similar tr k := by
  obtain ⟨k, θ, hk, h0, h1, h2, h3⟩ := h
  refine ⟨k, hk, ⟨?_, ?_, ?_⟩⟩
  · rw [h0, h1]; linear_combination k ^ 2 * (Real.sin_sq_add_cos_sq θ)
  · rw [h2, h3]; linear_combination k ^ 2 * (Real.sin_sq_add_cos_sq θ)
  · rw [h0, h1, h2, h3]; ring

/-- An arc of a circle under such a transform is what is built. -/
theorem arc_built {r large sweep x y : ℝ} {γ : ℝ → Vec} {tr : Transform} (ht : Turns tr) (s : PathState) (first : Bool)
    (h : CircleArc r s.pos ⟨x, y⟩ (large ≠ 0) (sweep ≠ 0) γ) :
    Traces (buildPath 'A' [r, r, 0, large, sweep, x, y] tr first s) tr s γ ⟨x, y⟩ := by
  obtain ⟨hr, hne, a, b, hγ, h1, hsw, htu, hla, hsm⟩ := h
  obtain ⟨k, θ, hk, t0, t1, t2, t3⟩ := ht
  obtain ⟨-, hs⟩ : True ∧ Similar tr k := by
    refine ⟨trivial, ⟨?_, ?_, ?_⟩⟩
    · rw [t0, t1]; linear_combination k ^ 2 * (Real.sin_sq_add_cos_sq θ)
    · rw [t2, t3]; linear_combination k ^ 2 * (Real.sin_sq_add_cos_sq θ)
    · rw [t0, t1, t2, t3]; ring
  -- the chord
  have hx : s.pos.x + r * (Real.cos b - Real.cos a) = x := by
    have := congrArg Vec.x ((hγ 1).symm.trans h1)
    simpa using this
  have hy : s.pos.y + r * (Real.sin b - Real.sin a) = y := by
    have := congrArg Vec.y ((hγ 1).symm.trans h1)
    simpa using this
  have hlen : ((⟨x, y⟩ : Vec) - s.pos).length ≤ 2 * r := by
    show √((x - s.pos.x) * (x - s.pos.x) + (y - s.pos.y) * (y - s.pos.y)) ≤ _
    rw [Real.sqrt_le_left (by linarith)]
    have e1 : x - s.pos.x = r * (Real.cos b - Real.cos a) := by linarith
    have e2 : y - s.pos.y = r * (Real.sin b - Real.sin a) := by linarith
    rw [e1, e2]
    have e3 : r * (Real.cos b - Real.cos a) * (r * (Real.cos b - Real.cos a)) + r * (Real.sin b - Real.sin a) * (r * (Real.sin b - Real.sin a)) =
        r ^ 2 * (2 - 2 * Real.cos (b - a)) := by
      rw [Real.cos_sub]
      linear_combination r ^ 2 * (Real.sin_sq_add_cos_sq a) + r ^ 2 * (Real.sin_sq_add_cos_sq b)
    rw [e3]
    nlinarith [Real.neg_one_le_cos (b - a), sq_nonneg r]
  obtain ⟨a1, a2, b1, b2, b3, b4, b5⟩ := (C79_circle r large sweep x y hr tr k hk hs first s hne.symm).2 hlen
  refine ⟨_, _, b1, by simp, fun u => ?_⟩
  have kr : k * r ≠ 0 := by positivity
  have tx : ∀ p : Vec, (tr * p).x = tr.m0 * p.x + tr.m2 * p.y + tr.m4 := fun p => by simp
  have ty : ∀ p : Vec, (tr * p).y = tr.m1 * p.x + tr.m3 * p.y + tr.m5 := fun p => by simp
  have cx := congrArg Vec.x b2
  have cy := congrArg Vec.y b2
  simp only [pointAt, tx, ty, mul_one] at cx cy
  rw [show a1 + (a2 - a1) = a2 by ring] at cx cy
  have ca : ∀ φ, Real.cos (φ + θ) = Real.cos φ * Real.cos θ - Real.sin φ * Real.sin θ := fun φ => Real.cos_add φ θ
  have sa : ∀ φ, Real.sin (φ + θ) = Real.sin φ * Real.cos θ + Real.cos φ * Real.sin θ := fun φ => Real.sin_add φ θ
  have e1 : Real.cos (b + θ) - Real.cos (a + θ) = Real.cos a2 - Real.cos a1 := by
    rw [ca, ca]
    apply mul_left_cancel₀ kr
    rw [← hx, ← hy, t0, t2] at cx
    linear_combination -cx
  have e2 : Real.sin (b + θ) - Real.sin (a + θ) = Real.sin a2 - Real.sin a1 := by
    rw [sa, sa]
    apply mul_left_cancel₀ kr
    rw [← hx, ← hy, t1, t3] at cy
    linear_combination -cy
  have hne' : Real.cos (b + θ) - Real.cos (a + θ) ≠ 0 ∨ Real.sin (b + θ) - Real.sin (a + θ) ≠ 0 := by
    by_contra hcon
    push Not at hcon
    obtain ⟨z1, z2⟩ := hcon
    rw [ca, ca] at z1
    rw [sa, sa] at z2
    have y1 : Real.cos b - Real.cos a = 0 := by
      linear_combination Real.cos θ * z1 + Real.sin θ * z2 - (Real.cos b - Real.cos a) * Real.sin_sq_add_cos_sq θ
    have y2 : Real.sin b - Real.sin a = 0 := by
      linear_combination Real.cos θ * z2 - Real.sin θ * z1 - (Real.sin b - Real.sin a) * Real.sin_sq_add_cos_sq θ
    rw [y1] at hx
    rw [y2] at hy
    exact hne (by ext <;> simp <;> linarith)
  have hd : a + θ < b + θ ↔ a1 < a2 := by rw [add_lt_add_iff_right, hsw, b3]
  have hl : Real.pi ≤ |b + θ - (a + θ)| ∧ Real.pi ≤ |a2 - a1| ∨ |b + θ - (a + θ)| ≤ Real.pi ∧ |a2 - a1| ≤ Real.pi := by
    rw [add_sub_add_right_eq_sub]
    by_cases hL : large ≠ 0
    · rw [if_pos hL] at b5
      exact .inl ⟨hla hL, b5⟩
    · rw [if_neg hL] at b5
      exact .inr ⟨hsm hL, b5⟩
  have same := arc_same e1 e2 hne' hd (by rwa [add_sub_add_right_eq_sub]) b4 hl
  have key := same u
  have key0 := same 0
  rw [hγ]
  rw [show a + θ + (b + θ - (a + θ)) * u = a + (b - a) * u + θ by ring, ca, sa] at key
  rw [show a + θ + (b + θ - (a + θ)) * 0 = a + θ by ring, show a1 + (a2 - a1) * 0 = a1 by ring, ca, sa] at key0
  ext
  · simp only [pointAt, tx, ← key.1, ← key0.1, t0, t2]
    ring
  · simp only [pointAt, ty, ← key.2, ← key0.2, t1, t3]
    ring

/-- The end of a segment is its last point. -/
theorem point_one (pos : Vec) (seg : Seg) : pointAt pos seg 1 = segEnd pos seg := by
  cases seg <;> ext <;> simp [pointAt, segEnd]

theorem buildAll_cons (tr : Transform) (first : Bool) (x : Char × List ℝ) (rest : List (Char × List ℝ)) (s : PathState) :
    buildAll tr first (x :: rest) s = match buildAll tr first [x] s with
      | some (.ok (), s') => buildAll tr false rest s'
      | r => r := by
  obtain ⟨cmd, args⟩ := x
  simp only [buildAll]
  rcases buildPath cmd args tr first s with _ | ⟨_ | _, s'⟩ <;> rfl

/-- What is built from commands are the lines and curves that they mean, transformed. -/
theorem figure_build {first : Bool} {pos start : Vec} {cmds : List (Char × List ℝ)} {l : List (ℝ → Vec)}
    (h : Figure first pos start cmds l) (tr : Transform) (ha : (∃ c ∈ cmds, c.1 = 'a' ∨ c.1 = 'A') → Turns tr) :
    ∀ s : PathState, s.pos = pos → s.start = start → ∃ s' segs, buildAll tr first cmds s = some (.ok (), s') ∧
      s'.segs = s.segs ++ segs ∧ linesOf (tr * pos) segs = moved tr l ∧
      ((∃ c ∈ cmds.head?, c.1 = 'm' ∨ c.1 = 'M') → ∃ p rest, segs = .goTo p :: rest) := by
  have one : ∀ {first : Bool} {cmd : Char} {args : List ℝ} {s : PathState} {rest : List (Char × List ℝ)} {l : List (ℝ → Vec)} {γ : ℝ → Vec} {e : Vec}, Traces (buildPath cmd args tr first s) tr s γ e →
      (∀ s' : PathState, s'.pos = e → s'.start = s.start → ∃ s'' segs, buildAll tr false rest s' = some (.ok (), s'') ∧
        s''.segs = s'.segs ++ segs ∧ linesOf (tr * e) segs = moved tr l ∧
        ((∃ c ∈ rest.head?, c.1 = 'm' ∨ c.1 = 'M') → ∃ p rest, segs = .goTo p :: rest)) → γ 1 = e → ¬ (cmd = 'm' ∨ cmd = 'M') →
      ∃ s'' segs, buildAll tr first ((cmd, args) :: rest) s = some (.ok (), s'') ∧
        s''.segs = s.segs ++ segs ∧ linesOf (tr * s.pos) segs = moved tr (γ :: l) ∧
        ((∃ c ∈ ((cmd, args) :: rest).head?, c.1 = 'm' ∨ c.1 = 'M') → ∃ p rest, segs = .goTo p :: rest) := by
    rintro first cmd args s rest l γ e ⟨seg, control, h1, h2, h3⟩ ih he hcmd
    obtain ⟨s'', segs, g1, g2, g3, -⟩ := ih ⟨e, s.start, control, s.segs ++ [seg]⟩ rfl rfl
    refine ⟨s'', seg :: segs, ?_, by simp [g2], ?_, fun ⟨c, hc, hc'⟩ => by
      simp only [List.head?_cons, Option.mem_some_iff] at hc; subst hc; exact absurd hc' hcmd⟩
    · simp only [buildAll, h1, g1]
    · have e1 : linesOf (tr * s.pos) (seg :: segs) = pointAt (tr * s.pos) seg :: linesOf (segEnd (tr * s.pos) seg) segs := by
        cases seg with
        | goTo p => exact absurd rfl (h2 p)
        | _ => rfl
      rw [e1, ← point_one, h3, he, g3, moved, moved, List.map_cons]
      congr 1
      exact funext h3
  induction h with
  | nil first pos start =>
    intro s _ _
    exact ⟨s, [], rfl, by simp, rfl, by simp⟩
  | @move _ _ _ x y rest l h ih =>
    intro s _ _
    obtain ⟨s'', segs, g1, g2, g3, -⟩ := ih (fun ⟨c, hc, hc'⟩ => ha ⟨c, List.mem_cons_of_mem _ hc, hc'⟩)
      ⟨⟨x, y⟩, ⟨x, y⟩, none, s.segs ++ [.goTo (tr * (⟨x, y⟩ : Vec))]⟩ rfl rfl
    refine ⟨s'', .goTo (tr * (⟨x, y⟩ : Vec)) :: segs, ?_, by simp [g2], g3, fun _ => ⟨_, _, rfl⟩⟩
    simp only [buildAll, C77_move, g1]
  | line h ih =>
    rintro s rfl rfl
    exact one (C77_line _ _ tr _ s) (ih fun ⟨c, hc, hc'⟩ => ha ⟨c, List.mem_cons_of_mem _ hc, hc'⟩) (by ext <;> simp [Svg.line]) (by decide)
  | horizontal h ih =>
    rintro s rfl rfl
    exact one (C77_horizontal _ tr _ s) (ih fun ⟨c, hc, hc'⟩ => ha ⟨c, List.mem_cons_of_mem _ hc, hc'⟩) (by ext <;> simp [Svg.line]) (by decide)
  | vertical h ih =>
    rintro s rfl rfl
    exact one (C77_vertical _ tr _ s) (ih fun ⟨c, hc, hc'⟩ => ha ⟨c, List.mem_cons_of_mem _ hc, hc'⟩) (by ext <;> simp [Svg.line]) (by decide)
  | close h ih =>
    rintro s rfl rfl
    exact one (C77_close tr _ s) (ih fun ⟨c, hc, hc'⟩ => ha ⟨c, List.mem_cons_of_mem _ hc, hc'⟩) (by ext <;> simp [Svg.line]) (by decide)
  | quadratic h ih =>
    rintro s rfl rfl
    exact one (C77_quadratic _ _ _ _ tr _ s) (ih fun ⟨c, hc, hc'⟩ => ha ⟨c, List.mem_cons_of_mem _ hc, hc'⟩)
      (by ext <;> simp [Svg.line, Svg.quadratic]) (by decide)
  | cubic h ih =>
    rintro s rfl rfl
    exact one (C77_cubic _ _ _ _ _ _ tr _ s) (ih fun ⟨c, hc, hc'⟩ => ha ⟨c, List.mem_cons_of_mem _ hc, hc'⟩)
      (by ext <;> simp [Svg.line, Svg.quadratic, Svg.cubic]) (by decide)
  | arc hγ h ih =>
    rintro s rfl rfl
    refine one (arc_built (ha ⟨_, List.mem_cons_self, .inr rfl⟩) s _ hγ)
      (ih fun ⟨c, hc, hc'⟩ => ha ⟨c, List.mem_cons_of_mem _ hc, hc'⟩) ?_ (by decide)
    obtain ⟨-, -, a, b, -, h1, -⟩ := hγ
    exact h1
  | @relative first pos start cmd args rest l h ih =>
    rintro s rfl rfl
    obtain ⟨s', segs, g1, g2, g3, g4⟩ := ih (fun ⟨c, hc, hc'⟩ => by
      rcases List.mem_cons.1 hc with rfl | hc
      · refine ha ⟨_, List.mem_cons_self, ?_⟩
        revert hc'
        unfold absolute
        split <;> simp
      · exact ha ⟨c, List.mem_cons_of_mem _ hc, hc'⟩) s rfl rfl
    refine ⟨s', segs, ?_, g2, g3, fun ⟨c, hc, hc'⟩ => g4 ⟨_, rfl, ?_⟩⟩
    rotate_left
    · simp only [List.head?_cons, Option.mem_some_iff] at hc
      subst hc
      rcases hc' with rfl | rfl <;> exact .inr rfl
    rw [← g1]
    simp only [buildAll, ← C50_relative]
  | @groups first pos start cmd args more rest l hg hm hd h ih =>
    rintro s rfl rfl
    obtain ⟨s', segs, g1, g2, g3, g4⟩ := ih (fun ⟨c, hc, hc'⟩ => by
      rcases List.mem_cons.1 hc with rfl | hc
      · exact ha ⟨_, List.mem_cons_self, hc'⟩
      · rcases List.mem_cons.1 hc with rfl | hc
        · refine ha ⟨_, List.mem_cons_self, ?_⟩
          revert hc'
          simp only [nextCmd]
          split <;> simp
        · exact ha ⟨c, List.mem_cons_of_mem _ hc, hc'⟩) s rfl rfl
    refine ⟨s', segs, ?_, g2, g3, fun ⟨c, hc, hc'⟩ => g4 ⟨_, rfl, ?_⟩⟩
    rotate_left
    · simp only [List.head?_cons, Option.mem_some_iff] at hc
      subst hc
      exact hc'
    rw [← g1, buildAll_cons, C77_groups cmd _ hg args more rfl hm hd]
    rw [buildAll_cons tr first (cmd, args) ((nextCmd cmd, more) :: rest), buildAll_cons tr first (cmd, args) [(nextCmd cmd, more)]]
    rcases buildAll tr first [(cmd, args)] s with _ | ⟨_ | _, s1⟩
    · rfl
    · rfl
    · simp only
      rw [buildAll_cons tr false (nextCmd cmd, more) rest]

end StepperPaths.Picture
