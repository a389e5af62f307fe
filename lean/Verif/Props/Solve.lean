import Verif.Proof.Solve
import Mathlib.Data.Real.Basic
import Mathlib.Tactic.FieldSimp

/-!
Properties C07 and C08: the integer root finder used to compute path durations.
-/

namespace StepperPaths.Props
open StepperPaths Solve

/-- C07: soundness of a returned value.  It lies in the interval, satisfies
`a x² + b x ≥ c`, and unless it is an exact root it has a neighbour inside the
interval that violates the inequality. -/
theorem C07_find_root_boundary (a b c min max x : Int) (h : min ≤ max)
    (e : findRoot a b c min max = some x) :
    min ≤ x ∧ x ≤ max ∧ c ≤ a * x ^ 2 + b * x ∧
    (a * x ^ 2 + b * x = c ∨
      (x + 1 ≤ max ∧ a * (x + 1) ^ 2 + b * (x + 1) < c) ∨
      (min ≤ x - 1 ∧ a * (x - 1) ^ 2 + b * (x - 1) < c)) := by
  have key : ∀ y, sqpoly a b c y = a * y ^ 2 + b * y - c := fun y => by unfold sqpoly; ring
  obtain ⟨h1, h2, h3, h4⟩ := findRoot_some h e
  simp only [key] at h3 h4
  refine ⟨h1, h2, by omega, ?_⟩
  rcases h4 with h4 | ⟨h4, h5⟩ | ⟨h4, h5⟩
  · left; omega
  · right; left; exact ⟨h4, by omega⟩
  · right; right; exact ⟨h4, by omega⟩

/-- C07: `None` is returned iff neither end is an exact root and both ends are on
the same side of the inequality. -/
theorem C07_find_root_none_iff (a b c min max : Int) :
    findRoot a b c min max = none ↔
      a * min ^ 2 + b * min ≠ c ∧ a * max ^ 2 + b * max ≠ c ∧
      (c ≤ a * min ^ 2 + b * min ↔ c ≤ a * max ^ 2 + b * max) := by
  have key : ∀ y, sqpoly a b c y = a * y ^ 2 + b * y - c := fun y => by unfold sqpoly; ring
  rw [findRoot_none_iff, key, key]
  omega

/-- C08: for `a > 0` `find_roots` never panics or diverges; it returns `None`
exactly when the inequality is strict on the whole real line. -/
theorem C08_find_roots_none_iff (a b c : Int) (ha : 0 < a) :
    (∃ r, findRoots a b c = some r) ∧
    (findRoots a b c = some none ↔ ∀ x : ℝ, (c : ℝ) < a * x ^ 2 + b * x) := by
  have hs := findRoots_spec a b c ha
  have ha' : (0 : ℝ) < a := by exact_mod_cast ha
  have id : ∀ x : ℝ, 4 * (a : ℝ) * (a * x ^ 2 + b * x - c)
      = (2 * a * x + b) ^ 2 - (b * b + 4 * a * c) := fun x => by ring
  rcases lt_or_ge (b * b + 4 * a * c) 0 with hd | hd
  · have hd' : ((b : ℝ) * b + 4 * a * c) < 0 := by exact_mod_cast hd
    refine ⟨⟨_, hs.1 hd⟩, fun _ x => ?_, fun _ => hs.1 hd⟩
    by_contra hn
    have h1 : 4 * (a : ℝ) * (a * x ^ 2 + b * x - c) ≤ 0 :=
      mul_nonpos_of_nonneg_of_nonpos (by positivity) (by linarith)
    have h2 := sq_nonneg (2 * (a : ℝ) * x + b)
    rw [id] at h1
    linarith
  · obtain ⟨x1, x2, e, _⟩ := hs.2 hd
    have hd' : 0 ≤ ((b : ℝ) * b + 4 * a * c) := by exact_mod_cast hd
    refine ⟨⟨_, e⟩, fun h => by rw [e] at h; simp at h, fun h => ?_⟩
    exfalso
    have h1 := h (-b / (2 * a))
    have h2 := id (-b / (2 * a))
    have h3 : 2 * (a : ℝ) * (-b / (2 * a)) + b = 0 := by field_simp; ring
    rw [h3] at h2
    have h4 : 0 < 4 * (a : ℝ) * (a * (-b / (2 * a)) ^ 2 + b * (-b / (2 * a)) - c) :=
      mul_pos (by positivity) (by linarith)
    rw [h2] at h4
    nlinarith

/-- C08: the returned pair encloses exactly the integers violating
`a x² + b x ≥ c`. -/
theorem C08_find_roots_gap (a b c x1 x2 : Int) (ha : 0 < a)
    (e : findRoots a b c = some (some (x1, x2))) :
    x1 ≤ x2 ∧ ∀ y : Int, a * y ^ 2 + b * y < c ↔ (x1 < y ∧ y < x2) := by
  have key : ∀ y, sqpoly a b c y = a * y ^ 2 + b * y - c := fun y => by unfold sqpoly; ring
  have hs := findRoots_spec a b c ha
  rcases lt_or_ge (b * b + 4 * a * c) 0 with hd | hd
  · rw [hs.1 hd] at e; simp at e
  · obtain ⟨y1, y2, e', h1, h2, h3⟩ := hs.2 hd
    rw [e'] at e
    simp only [Option.some.injEq, Prod.mk.injEq] at e
    obtain ⟨rfl, rfl⟩ := e
    refine ⟨h1, fun y => ⟨fun h => ?_, fun h => ?_⟩⟩
    · by_contra hn
      have := h2 y (by omega)
      rw [key] at this; omega
    · have := h3 y h.1 h.2
      rw [key] at this; omega

/-! ### Non-trivial instances -/

example : findRoot 4 (-12) (-8) (-100) 1 = some 1 ∧ findRoot 4 (-12) (-6) (-100) 1 = some 0 ∧
    findRoot 1 0 10 0 100 = some 4 ∧ findRoot 1 0 (-10) 0 100 = none := by
  decide +kernel

example : ∃ x1 x2, findRoots 9 (-27) (-17) = some (some (x1, x2)) ∧ x1 = 0 ∧ x2 = 3 := by
  obtain ⟨x1, x2, e, h⟩ := (findRoots_spec 9 (-27) (-17) (by decide)).2 (by decide)
  refine ⟨x1, x2, e, ?_⟩
  have g := (C08_find_roots_gap 9 (-27) (-17) x1 x2 (by decide) e).2
  have h1 := (g 1).1 (by decide)
  have h2 := (g 2).1 (by decide)
  have h3 := mt (g 0).2 (by decide)
  have h4 := mt (g 3).2 (by decide)
  omega

end StepperPaths.Props
