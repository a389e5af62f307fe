import Verif.Proof.AccVector

/-!
Properties C20-C22: run-length acceleration vectors.
-/

namespace StepperPaths.Props
open StepperPaths Spec

/-- A history of `acc_push` calls; `none` is a panic. -/
def pushAll (v : List AccSegment) : List (Nat × Int) → Option (List AccSegment)
  | [] => some v
  | (t, a) :: rest => (accPush v t a).bind (fun v' => pushAll v' rest)

/-- C20: one push appends exactly `t` ticks of `a`. -/
theorem C20_push_appends (v v' : List AccSegment) (t : Nat) (a : Int)
    (h : accPush v t a = some v') : expand v' = expand v ++ List.replicate t a :=
  accPush_expand h

/-- C20: a push panics exactly when it merges into a last segment of the same
acceleration and the merged interval exceeds 65535. -/
theorem C20_push_panics_iff (v : List AccSegment) (t : Nat) (a : Int) :
    accPush v t a = none ↔
      0 < t ∧ ∃ s, v.getLast? = some s ∧ s.acc = a ∧ 65535 < s.interval + t := by
  rw [accPush_eq_none]
  constructor <;> rintro ⟨h, s, h1, h2, h3⟩ <;> exact ⟨h, s, h1, h2, by omega⟩

theorem pushAll_spec (v v' : List AccSegment) (ps : List (Nat × Int))
    (hp : ∀ p ∈ ps, p.1 < 65536) (hc : Canonical v) (h : pushAll v ps = some v') :
    expand v' = expand v ++ ps.flatMap (fun p => List.replicate p.1 p.2) ∧ Canonical v' := by
  induction ps generalizing v with
  | nil => simp only [pushAll, Option.some.injEq] at h; subst h; simp [hc]
  | cons p ps ih =>
    obtain ⟨t, a⟩ := p
    simp only [pushAll] at h
    cases h1 : accPush v t a with
    | none => rw [h1] at h; simp at h
    | some v1 =>
      rw [h1] at h
      simp only [Option.bind_some] at h
      have c1 := accPush_canonical (hp (t, a) (by simp)) hc h1
      obtain ⟨e, c⟩ := ih v1 (fun p hp' => hp p (by simp [hp'])) c1 h
      refine ⟨?_, c⟩
      rw [e, accPush_expand h1]; simp

/-- C20: after any history of pushes on an empty vector the vector denotes exactly
the pushed ticks in order, has no empty segment, no interval above 65535 and no two
adjacent segments of the same acceleration. -/
theorem C20_push_history (v : List AccSegment) (ps : List (Nat × Int))
    (hp : ∀ p ∈ ps, p.1 < 65536) (h : pushAll [] ps = some v) :
    expand v = ps.flatMap (fun p => List.replicate p.1 p.2) ∧
    (∀ s ∈ v, 0 < s.interval ∧ s.interval ≤ 65535) ∧
    v.IsChain (fun s t => s.acc ≠ t.acc) := by
  obtain ⟨e, c⟩ := pushAll_spec [] v ps hp ⟨by simp, by simp⟩ h
  refine ⟨by simpa [expand] using e, fun s hs => ?_, c.2⟩
  have := c.1 s hs; omega

/-- C21: `acc_distance` equals the tick-by-tick integration. -/
theorem C21_distance_is_integral (segs : List AccSegment) (v0 d v : Int)
    (h : accDistance segs v0 = some (d, v)) :
    d = dist v0 (expand segs) ∧ v = endVel v0 (expand segs) := by
  have := accDistanceFrom_some h
  simpa using this

/-- C21: it does return when the velocity at the start and at the end of every
segment is at most 2³⁰ - 1 in absolute value. -/
theorem C21_distance_returns (segs : List AccSegment) (v0 : Int) (hv : |v0| < 2 ^ 30)
    (h : ∀ n ≤ segs.length, |endVel v0 (expand (segs.take n))| < 2 ^ 30) :
    accDistance segs v0 = some (dist v0 (expand segs), endVel v0 (expand segs)) := by
  have hb : ∀ x ∈ boundaryVels v0 segs, |x| ≤ 1073741823 := by
    clear hv
    induction segs generalizing v0 with
    | nil => simp [boundaryVels]
    | cons s rest ih =>
      intro x hx
      simp only [boundaryVels, List.mem_cons] at hx
      rcases hx with rfl | hx
      · have := h 1 (by simp)
        simp only [List.take_succ_cons, List.take_zero, expand_cons, expand_nil, List.append_nil,
          endVel_replicate] at this
        norm_num at this; omega
      · refine ih (v0 + s.acc * s.interval) (fun n hn => ?_) x hx
        have := h (n + 1) (by simpa using hn)
        rwa [List.take_succ_cons, expand_cons, endVel_append, endVel_replicate] at this
  obtain ⟨⟨d, v⟩, hr⟩ := accDistanceFrom_ok 0 v0 segs (by norm_num at hv; omega) hb
  have := C21_distance_is_integral segs v0 d v hr
  rw [accDistance, hr, this.1, this.2]

/-- C22: for positive intervals and at most 65535 ticks, `acc_iter(t).collect()`
yields the accelerations from tick `t` on, and `acc_iter` panics when `t` is not
smaller than the number of ticks.  The one exception is `t = 0` on a first segment
of 65535 ticks, see `C22_longest_segment_panics`. -/
theorem C22_iter_is_suffix (segs : List AccSegment) (t : Nat)
    (hs : ∀ s ∈ segs, 0 < s.interval) (hlen : (expand segs).length ≤ 65535)
    (hx : t = 0 → ∀ s ∈ segs.head?, s.interval ≠ 65535) :
    (t < (expand segs).length →
      ∃ it, accIter segs t = some it ∧ it.collect = some ((expand segs).drop t)) ∧
    ((expand segs).length ≤ t → accIter segs t = none) := by
  have := accIterFrom_spec 0 t segs hs (by omega) (by omega) (fun s h _ h' => hx h' s h)
  simpa [accIter] using this

/-- C22: the exception is real — on a first segment of 65535 ticks `acc_iter(0)` panics
(`end - t + 1` overflows). -/
theorem C22_longest_segment_panics (s : AccSegment) (rest : List AccSegment)
    (hs : s.interval = 65535) : accIter (s :: rest) 0 = none := by
  have h1 : toU16 (((0 : Nat) : Int) + (s.interval : Int)) = some s.interval := by
    rw [toU16_some (by omega) (by omega)]; congr 1; omega
  have h2 : toU16 ((s.interval : Int) - ((0 : Nat) : Int) + 1) = none := by
    unfold toU16; rw [if_neg (by omega)]
  have h3 : 0 ≤ 0 ∧ 0 < s.interval := by omega
  rw [accIter, accIterFrom_cons, h1, Option.bind_some, if_pos h3, h2, Option.bind_none]

/-- C22: calling `next` again after the iterator returned `None` panics (the counter
underflows), for every iterator. -/
theorem C22_next_after_end_panics (it it' : AccIter) (h : it.next = some (none, it')) :
    it'.next = none := by
  unfold AccIter.next at h
  simp only [] at h
  split at h
  · simp at h
  · split at h
    · split at h
      · simp at h
      · simp only [Option.some.injEq, Prod.mk.injEq, true_and] at h
        subst h
        rename_i h1 _ _
        simp only [AccIter.next, h1, if_true]
    · simp at h

/-! ### Non-trivial instances -/

example : pushAll [] [(2, 8), (0, 3), (1, 8), (4, -7), (1, 0)]
    = some [⟨3, 8⟩, ⟨4, -7⟩, ⟨1, 0⟩] := by decide

example : accDistance [⟨2, 8⟩, ⟨1, 4⟩, ⟨3, -7⟩] 5 = some (185, 4) ∧
    dist 5 (expand [⟨2, 8⟩, ⟨1, 4⟩, ⟨3, -7⟩]) = 185 := by decide

example : ∃ it, accIter [⟨2, 8⟩, ⟨1, 4⟩, ⟨3, -7⟩] 2 = some it ∧
    it.collect = some [4, -7, -7, -7] :=
  (C22_iter_is_suffix [⟨2, 8⟩, ⟨1, 4⟩, ⟨3, -7⟩] 2 (by decide) (by decide) (by simp)).1 (by decide)

end StepperPaths.Props
