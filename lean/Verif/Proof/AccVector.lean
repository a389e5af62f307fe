import Verif.Model.AccVector
import Verif.Spec.Ticks
import Mathlib.Tactic.Ring
import Mathlib.Tactic.Linarith
import Mathlib.Algebra.Order.Ring.Int
import Mathlib.Data.List.Chain

namespace StepperPaths
open Spec

/-! ### Tick semantics -/

theorem expand_nil : expand [] = [] := rfl

theorem expand_cons (s : AccSegment) (l) :
    expand (s :: l) = List.replicate s.interval s.acc ++ expand l := by simp [expand]

theorem expand_append (l₁ l₂ : List AccSegment) :
    expand (l₁ ++ l₂) = expand l₁ ++ expand l₂ := by simp [expand]

theorem endVel_append (v : Int) (l₁ l₂ : List Int) :
    endVel v (l₁ ++ l₂) = endVel (endVel v l₁) l₂ := by
  induction l₁ generalizing v with
  | nil => rfl
  | cons a l ih => simp [endVel, ih]

theorem dist_append (v : Int) (l₁ l₂ : List Int) :
    dist v (l₁ ++ l₂) = dist v l₁ + dist (endVel v l₁) l₂ := by
  induction l₁ generalizing v with
  | nil => simp [dist, endVel]
  | cons a l ih => simp [dist, endVel, ih]; ring

theorem vels_append (v : Int) (l₁ l₂ : List Int) :
    vels v (l₁ ++ l₂) = vels v l₁ ++ vels (endVel v l₁) l₂ := by
  induction l₁ generalizing v with
  | nil => rfl
  | cons a l ih => simp [vels, endVel, ih]

theorem endVel_replicate (v a : Int) (n : Nat) :
    endVel v (List.replicate n a) = v + a * n := by
  induction n generalizing v with
  | zero => simp [endVel]
  | succ n ih => rw [List.replicate_succ, endVel, ih]; push_cast; ring

theorem dist_replicate (v a : Int) (n : Nat) :
    dist v (List.replicate n a) = (2 * v + a * n) * n := by
  induction n generalizing v with
  | zero => simp [dist]
  | succ n ih => rw [List.replicate_succ, dist, ih]; push_cast; ring

theorem vels_length (v : Int) (l : List Int) : (vels v l).length = l.length := by
  induction l generalizing v with
  | nil => rfl
  | cons a l ih => simp [vels, ih]

theorem mem_vels_replicate {v a x : Int} {n : Nat} (h : x ∈ vels v (List.replicate n a)) :
    ∃ i : Nat, i < n ∧ x = v + a * (i + 1) := by
  induction n generalizing v with
  | zero => simp [vels] at h
  | succ n ih =>
    rw [List.replicate_succ, vels, List.mem_cons] at h
    rcases h with rfl | h
    · exact ⟨0, by omega, by simp⟩
    · obtain ⟨i, hi, rfl⟩ := ih h
      exact ⟨i + 1, by omega, by push_cast; ring⟩

theorem endVel_eq_sum (v : Int) (l : List Int) : endVel v l = v + l.sum := by
  induction l generalizing v with
  | nil => simp [endVel]
  | cons a l ih => simp [endVel, ih]; ring

/-! ### `acc_push` -/

/-- Canonical run-length form. -/
def Canonical (v : List AccSegment) : Prop :=
  (∀ s ∈ v, 0 < s.interval ∧ s.interval < 65536) ∧ v.IsChain (fun s t => s.acc ≠ t.acc)

theorem accPush_eq_none (v : List AccSegment) (t : Nat) (a : Int) :
    accPush v t a = none ↔ 0 < t ∧ ∃ s, v.getLast? = some s ∧ s.acc = a ∧ 65536 ≤ s.interval + t := by
  unfold accPush
  by_cases ht : t = 0
  · simp [ht]
  · rw [if_neg ht]
    cases h : v.getLast? with
    | none => simp
    | some s =>
      simp only
      split_ifs with h1 h2
      · simp [h1]; omega
      · simp [h1]; omega
      · simp [h1]

theorem accPush_expand {v v' : List AccSegment} {t : Nat} {a : Int}
    (h : accPush v t a = some v') : expand v' = expand v ++ List.replicate t a := by
  unfold accPush at h
  by_cases ht : t = 0
  · rw [if_pos ht] at h; cases h; simp [ht]
  · rw [if_neg ht] at h
    cases hl : v.getLast? with
    | none =>
      rw [hl] at h; simp only [Option.some.injEq] at h; subst h
      simp [expand]
    | some s =>
      rw [hl] at h; simp only at h
      have hv : v = v.dropLast ++ [s] := by
        rw [List.getLast?_eq_some_iff] at hl
        obtain ⟨ys, rfl⟩ := hl; simp
      split_ifs at h with h1 h2
      · simp only [Option.some.injEq] at h; subst h; subst h1
        conv_rhs => rw [hv]
        simp [expand, List.replicate_append_replicate]
      · simp only [Option.some.injEq] at h; subst h
        simp [expand]

theorem accPush_canonical {v v' : List AccSegment} {t : Nat} {a : Int} (ht' : t < 65536)
    (hc : Canonical v) (h : accPush v t a = some v') : Canonical v' := by
  unfold accPush at h
  by_cases ht : t = 0
  · rw [if_pos ht] at h; cases h; exact hc
  · rw [if_neg ht] at h
    cases hl : v.getLast? with
    | none =>
      rw [hl] at h; simp only [Option.some.injEq] at h; subst h
      have : v = [] := by simpa using hl
      subst this
      refine ⟨?_, by simp⟩
      simp; omega
    | some s =>
      rw [hl] at h; simp only at h
      obtain ⟨ys, rfl⟩ := List.getLast?_eq_some_iff.1 hl
      obtain ⟨c1, c2⟩ := hc
      split_ifs at h with h1 h2
      · simp only [Option.some.injEq, List.dropLast_concat] at h; subst h
        refine ⟨?_, ?_⟩
        · intro q hq
          rw [List.mem_append, List.mem_singleton] at hq
          rcases hq with hq | rfl
          · exact c1 q (by simp [hq])
          · have := c1 s (by simp)
            simp only; omega
        · rw [List.isChain_append] at c2 ⊢
          refine ⟨c2.1, by simp, ?_⟩
          intro x hx y hy
          simp only [List.head?_cons, Option.mem_def, Option.some.injEq] at hy
          subst hy
          exact c2.2.2 x hx s (by simp)
      · simp only [Option.some.injEq] at h; subst h
        refine ⟨?_, ?_⟩
        · intro q hq
          rw [List.mem_append, List.mem_singleton] at hq
          rcases hq with hq | rfl
          · exact c1 q hq
          · simp only; omega
        · rw [List.isChain_append]
          refine ⟨c2, by simp, ?_⟩
          intro x hx y hy
          simp only [List.head?_cons, Option.mem_def, Option.some.injEq] at hy
          subst hy
          simp only [List.getLast?_append, List.getLast?_singleton, Option.some_or,
            Option.mem_def, Option.some.injEq] at hx
          subst hx
          exact h1

/-! ### `acc_distance` -/

theorem accDistanceFrom_some {s v : Int} {segs : List AccSegment} {d w : Int}
    (h : accDistanceFrom s v segs = some (d, w)) :
    d = s + dist v (expand segs) ∧ w = endVel v (expand segs) := by
  induction segs generalizing s v with
  | nil =>
    simp only [accDistanceFrom, Option.some.injEq, Prod.mk.injEq] at h
    simp [expand, dist, endVel, h.1, h.2]
  | cons seg rest ih =>
    simp only [accDistanceFrom, bind, Option.bind] at h
    cases h1 : toI32 (v + seg.acc * seg.interval) with
    | none => rw [h1] at h; simp at h
    | some vn =>
      rw [h1] at h; simp only at h
      cases h2 : toI32 (v + vn) with
      | none => rw [h2] at h; simp at h
      | some sm =>
        rw [h2] at h; simp only at h
        obtain ⟨e1, e2⟩ := ih h
        have hv : vn = v + seg.acc * seg.interval := by
          unfold toI32 at h1; split at h1 <;> simp_all
        have hs : sm = v + vn := by
          unfold toI32 at h2; split at h2 <;> simp_all
        rw [expand_cons, dist_append, endVel_append, endVel_replicate, dist_replicate, ← hv]
        refine ⟨?_, e2⟩
        rw [e1, hs]
        rw [hv]; ring

theorem toI32_some {x : Int} (h1 : -2147483648 ≤ x) (h2 : x < 2147483648) :
    toI32 x = some x := by simp [toI32, h1, h2]

/-- Velocities at segment boundaries. -/
def boundaryVels (v : Int) : List AccSegment → List Int
  | [] => []
  | s :: rest => (v + s.acc * s.interval) :: boundaryVels (v + s.acc * s.interval) rest

theorem accDistanceFrom_ok (s v : Int) (segs : List AccSegment)
    (hv : |v| ≤ 1073741823) (h : ∀ x ∈ boundaryVels v segs, |x| ≤ 1073741823) :
    ∃ r, accDistanceFrom s v segs = some r := by
  induction segs generalizing s v with
  | nil => exact ⟨_, rfl⟩
  | cons seg rest ih =>
    have h1 := h (v + seg.acc * seg.interval) (by simp [boundaryVels])
    obtain ⟨a1, a2⟩ := abs_le.1 hv
    obtain ⟨b1, b2⟩ := abs_le.1 h1
    simp only [accDistanceFrom, bind, Option.bind]
    rw [toI32_some (by omega) (by omega)]
    simp only
    rw [toI32_some (by omega) (by omega)]
    simp only
    exact ih _ _ h1 (fun x hx => h x (by simp [boundaryVels, hx]))

/-! ### `acc_iter` -/

theorem collect_eq (it : AccIter) (hs : ∀ s ∈ it.seg, 0 < s.interval) (hc : 0 < it.count) :
    it.collect = some (List.replicate (it.count - 1) it.acc ++ expand it.seg) := by
  obtain ⟨c, a, seg⟩ := it
  simp only at hs hc ⊢
  induction seg generalizing c a with
  | nil =>
    induction c with
    | zero => omega
    | succ c ih =>
      rw [AccIter.collect]
      simp only [AccIter.next, Nat.add_sub_cancel, bind, Option.bind]
      rcases Nat.eq_zero_or_pos c with rfl | hc
      · simp [expand]
      · have : c ≠ 0 := by omega
        simp only [Nat.succ_ne_zero, if_false, this]
        rw [ih hc]
        simp only
        obtain ⟨c, rfl⟩ := Nat.exists_eq_add_of_le' hc
        simp [List.replicate_succ]
  | cons s seg ihs =>
    induction c with
    | zero => omega
    | succ c ih =>
      rw [AccIter.collect]
      simp only [AccIter.next, Nat.add_sub_cancel, bind, Option.bind]
      rcases Nat.eq_zero_or_pos c with rfl | hc
      · have hsi := hs s (by simp)
        simp only [Nat.zero_add, one_ne_zero, if_false, if_true]
        rw [ihs s.interval s.acc (fun q hq => hs q (by simp [hq])) hsi]
        obtain ⟨n, hn⟩ := Nat.exists_eq_add_of_le' hsi
        simp [expand_cons, hn, List.replicate_succ]
      · have : c ≠ 0 := by omega
        simp only [Nat.succ_ne_zero, if_false, this]
        rw [ih hc]
        simp only
        obtain ⟨c, rfl⟩ := Nat.exists_eq_add_of_le' hc
        simp [List.replicate_succ]

theorem toU16_some {x : Int} (h1 : 0 ≤ x) (h2 : x < 65536) : toU16 x = some x.toNat := by
  simp [toU16, h1, h2]

theorem accIterFrom_cons (start t : Nat) (s : AccSegment) (rest : List AccSegment) :
    accIterFrom start t (s :: rest) = (toU16 (start + s.interval)).bind (fun e =>
      if start ≤ t ∧ t < e then
        (toU16 ((e : Int) - t + 1)).bind (fun c => some ⟨c, s.acc, rest⟩)
      else accIterFrom e t rest) := by
  rfl

theorem accIterFrom_spec (start t : Nat) (segs : List AccSegment)
    (hs : ∀ s ∈ segs, 0 < s.interval) (hlen : start + (expand segs).length ≤ 65535)
    (hst : start ≤ t) (hx : ∀ s ∈ segs.head?, start = 0 → t = 0 → s.interval ≠ 65535) :
    (t < start + (expand segs).length →
      ∃ it, accIterFrom start t segs = some it ∧
        it.collect = some ((expand segs).drop (t - start))) ∧
    (start + (expand segs).length ≤ t → accIterFrom start t segs = none) := by
  induction segs generalizing start with
  | nil => simp [expand, accIterFrom]; omega
  | cons s rest ih =>
    rw [expand_cons, List.length_append, List.length_replicate] at hlen
    rw [expand_cons, List.length_append, List.length_replicate]
    have hsi := hs s (by simp)
    have hxs := hx s (by simp)
    unfold accIterFrom
    rw [show ((start : Int) + (s.interval : Int)) = ((start + s.interval : Nat) : Int) by push_cast; rfl,
      toU16_some (by omega) (by omega)]
    simp only [bind, Option.bind, Int.toNat_natCast]
    by_cases hin : start ≤ t ∧ t < start + s.interval
    · rw [if_pos hin, toU16_some (by omega) (by omega)]
      simp only [pure]
      refine ⟨fun _ => ⟨_, rfl, ?_⟩, fun h => by omega⟩
      rw [collect_eq _ (by intro q hq; exact hs q (by simp only at hq; simp [hq])) (by simp; omega)]
      simp only
      have : ((((start + s.interval : Nat) : Int) - (t : Int) + 1).toNat - 1)
          = s.interval - (t - start) := by omega
      rw [this, List.drop_append_of_le_length (by simp; omega), List.drop_replicate]
    · rw [if_neg hin]
      obtain ⟨i1, i2⟩ := ih (start + s.interval) (fun q hq => hs q (by simp [hq])) (by omega)
        (by omega) (fun _ _ h => by omega)
      refine ⟨fun h => ?_, fun h => i2 (by omega)⟩
      obtain ⟨it, e1, e2⟩ := i1 (by omega)
      refine ⟨it, e1, ?_⟩
      rw [e2, List.drop_append]
      have h1 : List.drop (t - start) (List.replicate s.interval s.acc) = [] := by
        rw [List.drop_eq_nil_iff]; simp; omega
      rw [h1, List.nil_append]
      congr 2
      simp; omega

end StepperPaths
