import Verif.Model.Plot
import Verif.Spec.Plot
import Verif.Props.Checked
import Verif.Props.Control

/-! The small programs: proofs. -/

namespace StepperPaths.Plot
open IntegerCurve Control Spec Props

theorem nextArg_some {s : List Char} {n : Int} (rest : List (List Char)) (h : readInt s = some n)
    (h1 : i64Min ≤ n) (h2 : n ≤ i64Max) : nextArg (s :: rest) = some (n, rest) := by
  simp [nextArg, parseI64_eq, h, h1, h2]

theorem nextArg_none (s : List Char) (rest : List (List Char))
    (h : ∀ n, readInt s = some n → i64Min ≤ n → i64Max < n) : nextArg (s :: rest) = none := by
  show Option.map _ (parseI64 s) = none
  rw [parseI64_eq]
  cases hr : readInt s with
  | none => rfl
  | some n =>
    have := h n hr
    rw [Option.filter_some, if_neg]
    · rfl
    · intro hd
      have hd := of_decide_eq_true hd
      have := this hd.1
      omega

theorem asI32_id {x : Int} (h : |x| < 2 ^ 31) : asI32 x = x := by
  have := abs_lt.1 h
  unfold asI32
  exact Int.bmod_eq_of_le (by norm_num; omega) (by norm_num; omega)

/-- The corners after the start. -/
def corners (t : ℕ) (v : ℤ) : List AccSegment → List (ℕ × ℤ)
  | [] => []
  | s :: rest => (t + s.interval, v + s.acc * s.interval) :: corners (t + s.interval) (v + s.acc * s.interval) rest

theorem showNat_eq (n : ℕ) : showNat n = showInt n := by
  unfold showInt
  rw [if_neg (by omega), Int.natAbs_natCast]

/-- What is written for the segments. -/
theorem animateSegs_ok {vmax : ℤ} (hv : vmax < 2 ^ 30) (segs : List AccSegment) (t : ℕ) (v : ℤ)
    (ht : t + (expand segs).length ≤ 65535) (h0 : |v| ≤ vmax)
    (hc : ∀ p ∈ corners t v segs, |p.2| ≤ vmax) :
    ∃ text, animateSegs t v segs = some text ∧ pairText (t, v) ++ text = joined ((t, v) :: corners t v segs) := by
  induction segs generalizing t v with
  | nil => exact ⟨[], rfl, by simp [corners, joined]⟩
  | cons s rest ih =>
    rw [expand_cons, List.length_append, List.length_replicate] at ht
    have h1 : |v + s.acc * s.interval| ≤ vmax := hc (t + s.interval, v + s.acc * s.interval) (by simp [corners])
    obtain ⟨text, e1, e2⟩ := ih (t + s.interval) (v + s.acc * s.interval) (by omega) h1
      (fun p hp => hc p (by simp [corners, hp]))
    have b0 := abs_le.1 h0
    have b1 := abs_le.1 h1
    have k1 : toU16 ((t : Int) + s.interval) = some (t + s.interval) := by
      unfold toU16
      rw [if_pos (by omega)]
      congr 1
    have k2 : toI32 (s.acc * s.interval) = some (s.acc * s.interval) := by
      unfold toI32
      rw [if_pos (by omega)]
    have k3 : toI32 (v + s.acc * s.interval) = some (v + s.acc * s.interval) := by
      unfold toI32
      rw [if_pos (by omega)]
    refine ⟨_, by simp only [animateSegs, k1, k2, k3, e1, Option.bind_eq_bind, Option.bind_some]; rfl, ?_⟩
    rw [corners, joined, ← e2]
    simp [pairText, showNat_eq]

theorem corners_length (t : ℕ) (v : ℤ) (segs : List AccSegment) : (corners t v segs).length = segs.length := by
  induction segs generalizing t v with
  | nil => rfl
  | cons s rest ih => simp [corners, ih]

theorem corners_last (segs : List AccSegment) (t : ℕ) (v : ℤ) :
    ((t, v) :: corners t v segs).getLast? = some (t + (expand segs).length, endVel v (expand segs)) := by
  induction segs generalizing t v with
  | nil => simp [corners, expand, endVel]
  | cons s rest ih =>
    rw [corners, List.getLast?_cons_cons, ih, expand_cons, endVel_append, endVel_replicate, List.length_append,
      List.length_replicate, Nat.add_assoc]

theorem corners_area (segs : List AccSegment) (t : ℕ) (v : ℤ) :
    area2 ((t, v) :: corners t v segs) = dist v (expand segs) := by
  induction segs generalizing t v with
  | nil => simp [corners, expand, dist, area2]
  | cons s rest ih =>
    rw [corners, area2, ih, expand_cons, dist_append, dist_replicate, endVel_replicate]
    push_cast
    ring

theorem corners_slope {a : ℤ} (segs : List AccSegment) (t : ℕ) (v : ℤ) (h : ∀ s ∈ segs, 0 < s.interval ∧ |s.acc| ≤ a) :
    ((t, v) :: corners t v segs).IsChain (fun p q => p.1 < q.1 ∧ |q.2 - p.2| ≤ a * (q.1 - p.1)) := by
  induction segs generalizing t v with
  | nil => simp [corners]
  | cons s rest ih =>
    obtain ⟨h1, h2⟩ := h s (by simp)
    rw [corners]
    refine List.IsChain.cons_cons ⟨by simpa using h1, ?_⟩ (ih _ _ (fun s hs => h s (by simp [hs])))
    rw [show v + s.acc * s.interval - v = s.acc * s.interval by ring, abs_mul]
    push_cast
    rw [show (t : ℤ) + s.interval - t = s.interval by ring, abs_of_nonneg (by omega : (0 : ℤ) ≤ s.interval)]
    exact mul_le_mul_of_nonneg_right h2 (by omega)

theorem corners_speed {vmax : ℤ} (segs : List AccSegment) (t : ℕ) (v : ℤ) (h : ∀ s ∈ segs, 0 < s.interval)
    (hv : ∀ x ∈ vels v (expand segs), |x| ≤ vmax) : ∀ p ∈ corners t v segs, |p.2| ≤ vmax := by
  induction segs generalizing t v with
  | nil => simp [corners]
  | cons s rest ih =>
    rw [expand_cons, vels_append, endVel_replicate] at hv
    intro p hp
    rw [corners, List.mem_cons] at hp
    rcases hp with rfl | hp
    · apply hv
      rw [List.mem_append]
      left
      have h1 := h s (by simp)
      obtain ⟨k, hk⟩ : ∃ k, s.interval = k + 1 := ⟨s.interval - 1, by omega⟩
      show v + s.acc * s.interval ∈ _
      rw [hk]
      clear * -
      induction k generalizing v with
      | zero => simp [vels]
      | succ k ih =>
        rw [List.replicate_succ, vels]
        have := ih (v + s.acc)
        rw [List.mem_cons]
        right
        convert this using 1
        push_cast
        ring
    · exact ih _ _ (fun s hs => h s (by simp [hs])) (fun x hx => hv x (by simp [hx])) p hp

end StepperPaths.Plot
