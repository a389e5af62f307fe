import Verif.Model.Gauss
import Mathlib.Analysis.SpecialFunctions.Integrals.Basic
import Mathlib.Algebra.Polynomial.Eval.Degree
import Mathlib.Tactic.Linarith

/-! Lemmas about the Gauss quadrature. -/

namespace StepperPaths.Gauss
open Polynomial

/-- The nodes of order `n`. -/
def nodes (n : ℕ) : List (ℚ × ℚ) := (weights.getD (n - 2) []).zip (abscissas.getD (n - 2) [])

theorem sumUp_eq (k m : ℝ) (f : ℝ → ℝ) (ws xs : List ℚ) (s : ℝ) (h : ws.length = xs.length) :
    sumUp k m f ws xs s =
      some (s + ((ws.zip xs).map fun e => (e.1 : ℝ) * f (k * e.2 + m)).sum) := by
  induction ws generalizing xs s with
  | nil => simp [sumUp]
  | cons w ws ih =>
    cases xs with
    | nil => simp at h
    | cons x xs =>
      rw [sumUp, ih _ _ (by simpa using h)]
      simp only [List.zip_cons_cons, List.map_cons, List.sum_cons]
      congr 1
      ring

theorem integrate_eq (a b : ℝ) (n : ℕ) (f : ℝ → ℝ) (h1 : 2 ≤ n) (h2 : n ≤ 8) :
    integrate a b n f =
      some ((b - a) / 2 * ((nodes n).map fun e => (e.1 : ℝ) * f ((b - a) / 2 * e.2 + (a + b) / 2)).sum) := by
  have hw : ∃ ws xs, weights[n - 2]? = some ws ∧ abscissas[n - 2]? = some xs ∧ ws.length = xs.length := by
    interval_cases n <;> exact ⟨_, _, rfl, rfl, rfl⟩
  obtain ⟨ws, xs, e1, e2, e3⟩ := hw
  have en : nodes n = ws.zip xs := by
    unfold nodes
    rw [List.getD_eq_getElem?_getD, e1, List.getD_eq_getElem?_getD, e2]
    rfl
  unfold integrate
  rw [if_neg (by omega), e1, e2, en]
  simp only [Option.bind_eq_bind, Option.bind_some]
  rw [sumUp_eq _ _ _ _ _ _ e3]
  simp

/-- The accuracy of the constants of order `n`. -/
def accuracy (n : ℕ) : ℚ := if n ≤ 3 then 1 / 10 ^ 10 else 1 / 10 ^ 15

/-- The integral of `t ^ j` from -1 to 1. -/
def moment (j : ℕ) : ℚ := if j % 2 = 0 then 2 / (j + 1) else 0

def nodeMoment (n j : ℕ) : ℚ := ((nodes n).map fun e => e.1 * e.2 ^ j).sum

theorem tables (n : ℕ) (h1 : 2 ≤ n) (h2 : n ≤ 8) :
    (∀ j < 2 * n, |nodeMoment n j - moment j| ≤ accuracy n) ∧
      ((nodes n).map fun e => (e.1, -e.2)).reverse = nodes n ∧
      (∀ e ∈ nodes n, 0 < e.1 ∧ -1 < e.2 ∧ e.2 < 1) ∧ (nodes n).length = n := by
  interval_cases n <;> decide +kernel

end StepperPaths.Gauss
