import Verif.Proof.Limits
import Verif.Proof.Raster
import Mathlib.Tactic.LinearCombination
import Mathlib.Tactic.Linarith

/-! Accelerations that do not fit `i16`: every move that takes more than one tick fails. -/

namespace StepperPaths.MultiRange

variable {α : Type*} [LinearOrder α]

theorem skipTo_mem {lo : α} : ∀ {rest : List (α × α)} {r2 q : α × α} {t : List (α × α)},
    skipTo lo r2 rest = some (q, t) → q ∈ r2 :: rest ∧ ∀ p ∈ t, p ∈ r2 :: rest := by
  intro rest
  induction rest with
  | nil =>
    intro r2 q t h
    unfold skipTo at h
    split at h
    · simp at h
    · simp only [Option.some.injEq, Prod.mk.injEq] at h
      obtain ⟨rfl, rfl⟩ := h
      simp
  | cons r rs ih =>
    intro r2 q t h
    unfold skipTo at h
    split at h
    · obtain ⟨h1, h2⟩ := ih h
      exact ⟨List.mem_cons_of_mem _ h1, fun p hp => List.mem_cons_of_mem _ (h2 p hp)⟩
    · simp only [Option.some.injEq, Prod.mk.injEq] at h
      obtain ⟨rfl, rfl⟩ := h
      exact ⟨by simp, fun p hp => List.mem_cons_of_mem _ hp⟩

theorem le_rmax (a b : α) : a ≤ rmax a b ∧ b ≤ rmax a b := by
  unfold rmax
  split
  · rename_i h
    exact ⟨le_refl _, h.le⟩
  · rename_i h
    exact ⟨not_lt.1 h, le_refl _⟩

theorem gather_low {b : α} {r1 : α × α} : ∀ {rest : List (α × α)} {r2 : α × α}, b ≤ r2.1 → (∀ p ∈ rest, b ≤ p.1) →
    (∀ p ∈ (gather r1 r2 rest).1, r1.1 ≤ p.1 ∧ b ≤ p.1) ∧ b ≤ (gather r1 r2 rest).2.1.1 ∧
      ∀ p ∈ (gather r1 r2 rest).2.2, b ≤ p.1 := by
  intro rest
  induction rest with
  | nil => intro r2 h _; simp [gather, h]
  | cons rn rs ih =>
    intro r2 h hr
    unfold gather
    split
    · exact ⟨by simp, h, hr⟩
    · obtain ⟨g1, g2, g3⟩ := ih (hr rn (by simp)) (fun p hp => hr p (by simp [hp]))
      refine ⟨fun p hp => ?_, g2, g3⟩
      rcases List.mem_cons.1 hp with rfl | hp
      · exact ⟨(le_rmax _ _).1, (hr rn (by simp)).trans (le_rmax _ _).2⟩
      · exact g1 p hp

theorem andLoop_low {a b : α} : ∀ {l : List (α × α)} {r2 : α × α} {rest : List (α × α)}, (∀ p ∈ l, a ≤ p.1) → b ≤ r2.1 →
    (∀ p ∈ rest, b ≤ p.1) → ∀ p ∈ andLoop l r2 rest, a ≤ p.1 ∧ b ≤ p.1 := by
  intro l
  induction l with
  | nil => intro r2 rest _ _ _ p hp; simp [andLoop] at hp
  | cons r1 rs1 ih =>
    intro r2 rest hl h2 hr p hp
    unfold andLoop at hp
    split at hp
    · simp at hp
    · rename_i r2' rest' he
      obtain ⟨m1, m2⟩ := skipTo_mem he
      have all : ∀ q ∈ r2 :: rest, b ≤ q.1 := by
        intro q hq
        rcases List.mem_cons.1 hq with rfl | hq
        · exact h2
        · exact hr q hq
      obtain ⟨g1, g2, g3⟩ := gather_low (r1 := r1) (all _ m1) (fun q hq => all q (m2 q hq))
      simp only [List.append_assoc, List.mem_append] at hp
      rcases hp with hp | hp | hp
      · split at hp
        · rw [List.mem_singleton] at hp
          subst hp
          exact ⟨(hl r1 (by simp)).trans (le_rmax _ _).1, (all _ m1).trans (le_rmax _ _).2⟩
        · simp at hp
      · exact ⟨(hl r1 (by simp)).trans (g1 p hp).1, (g1 p hp).2⟩
      · exact ih (fun q hq => hl q (by simp [hq])) g2 g3 p hp

/-- The ranges of an intersection begin no earlier than those of the operands. -/
theorem andRange_low {a b : α} {m o : MultiRange α} (hm : ∀ p ∈ m.ranges, a ≤ p.1) (ho : ∀ p ∈ o.ranges, b ≤ p.1) :
    ∀ p ∈ (m.andRange o).ranges, a ≤ p.1 ∧ b ≤ p.1 := by
  unfold andRange
  cases h : o.ranges with
  | nil => simp
  | cons r2 rest =>
    rw [h] at ho
    exact andLoop_low hm (ho r2 (by simp)) (fun p hp => ho p (by simp [hp]))

theorem and_low {m : MultiRange α} {low high : α} : ∀ p ∈ (m.and low high).ranges, low ≤ p.1 := by
  intro p hp
  simp only [MultiRange.and, List.mem_map] at hp
  obtain ⟨q, -, rfl⟩ := hp
  exact (le_rmax _ _).1

omit [LinearOrder α] in
theorem bounds_mem {m : MultiRange α} {a b : α} (h : m.bounds = some (a, b)) : ∃ p ∈ m.ranges, p.1 = a := by
  unfold bounds at h
  split at h
  · rename_i f l hf hl
    simp only [Option.some.injEq, Prod.mk.injEq] at h
    exact ⟨f, List.mem_of_head? hf, h.1⟩
  · simp at h

end StepperPaths.MultiRange

namespace StepperPaths.IntegerCurve
open Solve

/-- The lengths that `max_acceleration_curve` allows are positive. -/
theorem maxAcc_low {ds v0 vn a : Int} {r : MultiRange Int} (ha : 0 < a) (h : maxAccelerationCurve ds v0 vn a = some r) :
    ∀ p ∈ r.ranges, 1 ≤ p.1 := by
  simp only [maxAccelerationCurve, Option.bind_eq_bind, Option.bind_eq_some_iff] at h
  obtain ⟨tmin, h1, h⟩ := h
  have ht : 1 ≤ tmin := by
    unfold minTime at h1
    split at h1
    · rename_i hne
      simp only [cdiv, ha.ne', if_false, Option.some.injEq] at h1
      have : 0 < |v0 - vn| := abs_pos.2 (by omega)
      rw [← h1, Int.tdiv_eq_ediv_of_nonneg (by omega)]
      exact Int.le_ediv_of_mul_le ha (by omega)
    · exact (Option.some.inj h1).le
  have rng : ∀ p ∈ (MultiRange.range tmin i64Max).ranges, 1 ≤ p.1 := by
    intro p hp
    rw [MultiRange.range, List.mem_singleton] at hp
    subst hp
    exact ht
  split at h
  · obtain rfl := Option.some.inj h
    exact rng
  · simp only [Option.bind_eq_some_iff] at h
    obtain ⟨xmin, -, h⟩ := h
    split at h
    · obtain rfl := Option.some.inj h
      exact rng
    · simp only [Option.bind_eq_some_iff] at h
      obtain ⟨lim, -, h⟩ := h
      unfold gapRange at h
      split at h
      · simp only [Option.bind_eq_bind, Option.bind_eq_some_iff, Option.pure_def, Option.some.injEq] at h
        obtain ⟨r1, -, r2, -, rfl⟩ := h
        exact fun p hp => ht.trans (MultiRange.and_low p hp)
      · simp at h

/-- So are those of `speed_limited_curve`, unless both ends are at the top speed. -/
theorem speedLimited_low {ds v0 vn a vmax : Int} {r : MultiRange Int} (ha : 0 < a) (hv : 0 < vmax) (h0 : v0 ≤ vmax)
    (hn : vn ≤ vmax) (hb : v0 + vn < 2 * vmax) (h : speedLimitedCurve ds v0 vn a vmax = some r) :
    ∀ p ∈ r.ranges, 1 ≤ p.1 := by
  simp only [speedLimitedCurve, Option.bind_eq_bind, Option.bind_eq_some_iff] at h
  obtain ⟨_, -, h⟩ := h
  split at h
  · rename_i hs
    simp only [Option.bind_eq_some_iff, cdiv] at h
    obtain ⟨q, hq', h⟩ := h
    rw [if_neg (by omega)] at hq'
    obtain rfl := Option.some.inj hq'
    have hq : 0 ≤ Int.tdiv (ds - ((2 * v0 + (vmax - v0 + a - 1).fdiv a * a) * (vmax - v0 + a - 1).fdiv a +
        ((vmax - v0 + a - 1).fmod a - (a - 1)) + (2 * vn + (vmax - vn + a - 1).fdiv a * a) * (vmax - vn + a - 1).fdiv a +
        ((vmax - vn + a - 1).fmod a - (a - 1))) + 2 * vmax - 1) (2 * vmax) :=
      Int.tdiv_nonneg (by omega) (by omega)
    have t : ∀ v, v ≤ vmax → 0 ≤ (vmax - v + a - 1).fdiv a ∧ (v < vmax → 1 ≤ (vmax - v + a - 1).fdiv a) := by
      intro v hv
      rw [Int.fdiv_eq_ediv_of_nonneg _ ha.le]
      exact ⟨Int.ediv_nonneg (by omega) ha.le, fun h => Int.le_ediv_of_mul_le ha (by omega)⟩
    obtain ⟨a1, a2⟩ := t v0 h0
    obtain ⟨b1, b2⟩ := t vn hn
    unfold MultiRange.or at h
    split at h
    · obtain rfl := Option.some.inj h
      intro p hp
      simp only [MultiRange.orBody, MultiRange.new, MultiRange.orJoin, List.dropWhile_nil, List.takeWhile_nil, List.nil_append,
        List.mem_singleton] at hp
      subst hp
      show 1 ≤ _ + _
      by_cases hc : v0 < vmax
      · have := a2 hc; omega
      · have := b2 (by omega); omega
    · simp at h
  · obtain rfl := Option.some.inj h
    simp [MultiRange.new]

theorem length_low {ds v0 vn a vmax : Int} {r : MultiRange Int} (ha : 0 < a) (hv : 0 < vmax) (h0 : v0 ≤ vmax)
    (hn : vn ≤ vmax) (hb : v0 + vn < 2 * vmax) (h : shortestCurveLength ds v0 vn a vmax = some r) :
    ∀ p ∈ r.ranges, 1 ≤ p.1 := by
  simp only [shortestCurveLength, sideLengths, Option.bind_eq_bind, Option.bind_eq_some_iff, Option.pure_def, Option.some.injEq] at h
  obtain ⟨pos, ⟨r1, h1, h2⟩, neg, -, rfl⟩ := h
  have hp : ∀ p ∈ pos.ranges, 1 ≤ p.1 := by
    split at h2
    · exact maxAcc_low ha h2
    · obtain rfl := Option.some.inj h2
      exact speedLimited_low ha hv h0 hn hb h1
  by_cases hneg : neg.ranges = []
  · simp [MultiRange.andRange, hneg]
  · obtain ⟨b, hb⟩ : ∃ b, ∀ p ∈ neg.ranges, b ≤ p.1 := by
      generalize neg.ranges = l
      induction l with
      | nil => exact ⟨0, by simp⟩
      | cons q l ih =>
        obtain ⟨b, hb⟩ := ih
        refine ⟨min b q.1, fun p hp => ?_⟩
        rcases List.mem_cons.1 hp with rfl | hp
        · exact min_le_right _ _
        · exact (min_le_left _ _).trans (hb p hp)
    exact fun p hp' => (MultiRange.andRange_low hp hb p hp').1

/-- A sequence of more than one tick with an acceleration that does not fit. -/
theorem accSeq_big {p : DistancePath} {s : List AccSegment} (ha : 32768 < p.amax) (h : p.accSeq = some s) : p.tTotal ≤ 1 := by
  by_contra hc
  simp only [DistancePath.accSeq, hc, if_false, Option.bind_eq_bind, Option.bind_eq_some_iff] at h
  obtain ⟨⟨vs, ve, st⟩, -, ⟨t1, d1⟩, -, ⟨t4, d4⟩, -, _, -, s1, h, -⟩ := h
  have nope : ∀ l t a x, pushI l t a = some x → -32768 ≤ a ∧ a < 32768 := by
    intro l t a x h
    simp only [pushI, Option.bind_eq_bind, Option.bind_eq_some_iff, toI16] at h
    obtain ⟨_, -, b, hb, -⟩ := h
    by_contra hn
    rw [if_neg hn] at hb
    simp at hb
  have : ∀ a, (a = p.amax ∨ a = -p.amax) → pushUp [] p.v0 vs a |t1| d1 ≠ some s1 := by
    intro a hx h
    unfold pushUp at h
    split at h
    · have := nope _ _ _ _ h
      omega
    · simp only [Option.bind_eq_bind, Option.bind_eq_some_iff] at h
      obtain ⟨s2, h, -⟩ := h
      have := nope _ _ _ _ h
      omega
  simp only at h
  split at h
  · exact this _ (.inl rfl) h
  · exact this _ (.inr rfl) h

theorem adjust_total {t ds v0 vn a : Int} {p : DistancePath} (h : adjustCurve t ds v0 vn a = some p) :
    p.tTotal = t ∧ p.amax = a ∧ p.v0 = v0 ∧ p.vn = vn ∧ (t = 1 → |v0 + vn - ds| ≤ 1) := by
  unfold adjustCurve at h
  by_cases ht : t = 1
  · simp only [ht, if_true, Option.bind_eq_bind, Option.bind_eq_some_iff, cassert] at h
    obtain ⟨_, h1, h2⟩ := h
    obtain rfl := Option.some.inj h2
    refine ⟨ht.symm, rfl, rfl, rfl, fun _ => ?_⟩
    by_contra hn
    rw [if_neg hn] at h1
    simp at h1
  · simp only [ht, if_false, Option.bind_eq_bind, Option.bind_eq_some_iff] at h
    obtain ⟨m, h1, h⟩ := h
    cases m with
    | some path =>
      obtain rfl := Option.some.inj h
      simp only [adjustCurveMid, Option.bind_eq_bind, Option.bind_eq_some_iff, Option.pure_def, Option.some.injEq,
        Option.map_eq_some_iff] at h1
      obtain ⟨r, -, x, -, rfl⟩ := h1
      exact ⟨rfl, rfl, rfl, rfl, fun h => absurd h ht⟩
    | none =>
      simp only [Option.bind_eq_some_iff] at h
      obtain ⟨_, -, _, -, _, -, _, -, _, -, _, -, _, -, _, -, _, -, ⟨_, _, _, _⟩, -, h⟩ := h
      obtain rfl := Option.some.inj h
      exact ⟨rfl, rfl, rfl, rfl, fun h => absurd h ht⟩

theorem one_tick {p : DistancePath} {s : List AccSegment} (ht : p.tTotal = 1) (h : p.accSeq = some s) :
    s = [⟨1, p.vn - p.v0⟩] := by
  simp only [DistancePath.accSeq, ht, le_refl, if_true, one_ne_zero, if_false, Option.bind_eq_bind, Option.bind_eq_some_iff] at h
  obtain ⟨_, -, h⟩ := h
  simp only [pushI, Option.bind_eq_bind, Option.bind_eq_some_iff, toU16, toI16] at h
  obtain ⟨t, h1, a, h2, h3⟩ := h
  simp at h1
  subst h1
  split at h2
  · obtain rfl := Option.some.inj h2
    simpa [accPush] using h3.symm
  · simp at h2

/-- Two axes, one of which has an acceleration that does not fit: the move takes a single tick. -/
theorem sequences_big {lx ly : PathLimits} {seq : List (List AccSegment)} (hbig : 32768 < lx.a ∨ 32768 < ly.a)
    (hlow : (∀ r, shortestCurveLength lx.ds lx.v0 lx.vn lx.a lx.vmax = some r → ∀ p ∈ r.ranges, 1 ≤ p.1) ∨
      ∀ r, shortestCurveLength ly.ds ly.v0 ly.vn ly.a ly.vmax = some r → ∀ p ∈ r.ranges, 1 ≤ p.1)
    (h : shortestCurveSequences [lx, ly] = some seq) :
    seq = [[⟨1, lx.vn - lx.v0⟩], [⟨1, ly.vn - ly.v0⟩]] ∧ |lx.v0 + lx.vn - lx.ds| ≤ 1 ∧ |ly.v0 + ly.vn - ly.ds| ≤ 1 := by
  simp only [shortestCurveSequences, commonLengths, Option.bind_eq_bind, Option.bind_eq_some_iff, Option.some.injEq] at h
  obtain ⟨r0, -, r, ⟨m1, h1, m2, h2, hr⟩, ⟨t, u⟩, h3, h4⟩ := h
  have low : ∀ l : List (Int × Int), ∃ b, ∀ p ∈ l, b ≤ p.1 := by
    intro l
    induction l with
    | nil => exact ⟨0, by simp⟩
    | cons q l ih =>
      obtain ⟨b, hb⟩ := ih
      refine ⟨min b q.1, fun p hp => ?_⟩
      rcases List.mem_cons.1 hp with rfl | hp
      · exact min_le_right _ _
      · exact (min_le_left _ _).trans (hb p hp)
  have ht : 1 ≤ t := by
    obtain ⟨p, hp, hpt⟩ := MultiRange.bounds_mem h3
    rw [← hr] at hp
    obtain ⟨b0, hb0⟩ := low r0.ranges
    obtain ⟨b1, hb1⟩ := low m1.ranges
    obtain ⟨b2, hb2⟩ := low m2.ranges
    rw [← hpt]
    rcases hlow with hl | hl
    · exact (MultiRange.andRange_low (fun q hq => (MultiRange.andRange_low hb0 (hl _ h1) q hq).2) hb2 p hp).1
    · exact (MultiRange.andRange_low (fun q hq => (MultiRange.andRange_low hb0 hb1 q hq).2) (hl _ h2) p hp).2
  simp only [List.mapM_cons, List.mapM_nil, Option.bind_eq_bind, Option.bind_eq_some_iff, Option.pure_def, Option.some.injEq] at h4
  obtain ⟨sx, ⟨px, a1, a2⟩, l, ⟨sy, ⟨py, b1, b2⟩, l2, rfl, rfl⟩, rfl⟩ := h4
  obtain ⟨c1, c2, c3, c4, c5⟩ := adjust_total a1
  obtain ⟨d1, d2, d3, d4, d5⟩ := adjust_total b1
  have t1 : t = 1 := by
    rcases hbig with hb | hb
    · have := accSeq_big (by rw [c2]; exact hb) a2
      omega
    · have := accSeq_big (by rw [d2]; exact hb) b2
      omega
  rw [one_tick (c1.trans t1) a2, one_tick (d1.trans t1) b2, c3, c4, d3, d4]
  exact ⟨rfl, c5 t1, d5 t1⟩

end StepperPaths.IntegerCurve

namespace StepperPaths.Context
open IntegerCurve

/-- The targets and end speeds of a move, by axis. -/
def pick (x y : Int) : Axis → Int
  | .x => x
  | .y => y

theorem push_channels {c c' : Ctx} {t : Nat} {cmd : Command} (h : c.push t cmd = some c') : c'.channels = c.channels := by
  simp only [Ctx.push, Option.bind_eq_bind, Option.bind_eq_some_iff, Option.pure_def, Option.some.injEq] at h
  obtain ⟨d, -, rfl⟩ := h
  rfl

theorem takeSegment_channels {c c' : Ctx} {i : Axis} {s : AccSegment} (h : c.takeSegment i s = some c') (j : Axis) :
    c'.channels j = if j = i then { c.channels i with ticks := (c.channels i).ticks + s.interval } else c.channels j := by
  simp only [Ctx.takeSegment, Option.bind_eq_bind, Option.bind_eq_some_iff, Option.pure_def, Option.some.injEq] at h
  obtain ⟨_, -, c1, h1, rfl⟩ := h
  have := push_channels h1
  simp only [Ctx.setCh, this]

theorem segs_one {c c' : Ctx} {a b : AccSegment} (h : c.accSegsToEvents [a] [b] = some c') :
    ∀ j, c'.channels j = { c.channels j with ticks := (c.channels j).ticks + (match j with | .x => a | .y => b).interval } := by
  have one : ∀ {c c' : Ctx} (s : AccSegment), (c.accSegsToEvents [s] [] = some c' → c.takeSegment .x s = some c') ∧
      (c.accSegsToEvents [] [s] = some c' → c.takeSegment .y s = some c') := by
    intro c c' s
    constructor <;> intro h <;> rw [Ctx.accSegsToEvents.eq_def] at h <;>
      simp only [Option.bind_eq_bind, Option.bind_eq_some_iff] at h <;> obtain ⟨c1, h1, h2⟩ := h <;>
      rw [Ctx.accSegsToEvents.eq_def] at h2 <;> obtain rfl := Option.some.inj h2 <;> exact h1
  rw [Ctx.accSegsToEvents.eq_def] at h
  simp only at h
  intro j
  split at h <;> simp only [Option.bind_eq_bind, Option.bind_eq_some_iff] at h <;> obtain ⟨c1, h1, h2⟩ := h
  · have e2 := takeSegment_channels ((one _).1 h2) j
    have e1 := takeSegment_channels h1
    rw [e2, e1, e1]
    cases j <;> simp
  · have e2 := takeSegment_channels ((one _).2 h2) j
    have e1 := takeSegment_channels h1
    rw [e2, e1, e1]
    cases j <;> simp

theorem dist_one {v w s u : Int} (h : accDistance [⟨1, w - v⟩] v = some (s, u)) : s = v + w ∧ u = w := by
  simp only [accDistance, accDistanceFrom, Option.bind_eq_bind, Option.bind_eq_some_iff, toI32] at h
  obtain ⟨a, h1, b, h2, h3⟩ := h
  split at h1
  · obtain rfl := Option.some.inj h1
    split at h2
    · obtain rfl := Option.some.inj h2
      simp only [Option.some.injEq, Prod.mk.injEq] at h3
      constructor
      · rw [← h3.1]; push_cast; ring
      · rw [← h3.2]; push_cast; ring
    · simp at h2
  · simp at h1

/-- A limit that does not fit `i16`: a move takes one tick, and the machine gets from one speed to the other in it. -/
theorem goto_big {c c' : Ctx} {x y vx vy : Int} (hbig : ∃ i, 32768 < c.aMax i)
    (hlow : ∃ i, 0 < c.aMax i ∧ 0 < c.vMax i ∧ (c.channels i).v ≤ c.vMax i ∧ (c.channels i).v + pick vx vy i < 2 * c.vMax i)
    (h : c.stepGotoSpeed x y vx vy = some c') (i : Axis) :
    |pick x y i - (c.channels i).pos - ((c.channels i).v + pick vx vy i)| ≤ 1 ∧
      c'.channels i = ⟨(c.channels i).pos + ((c.channels i).v + pick vx vy i), pick vx vy i, (c.channels i).ticks + 1⟩ := by
  simp only [Ctx.stepGotoSpeed, Option.bind_eq_bind, Option.bind_eq_some_iff, cassert] at h
  obtain ⟨_, h1, _, h2, c1, h3, seq, h4, h⟩ := h
  have g1 : vx ≤ c.vMax .x := by by_contra hn; simp [hn] at h1
  have g2 : vy ≤ c.vMax .y := by by_contra hn; simp [hn] at h2
  obtain ⟨k1, k2⟩ := push_kept h3
  have k3 := push_channels h3
  obtain ⟨rfl, e1, e2⟩ := sequences_big (by
      obtain ⟨i, hi⟩ := hbig
      cases i
      · left; simpa [Ctx.limits, k1] using hi
      · right; simpa [Ctx.limits, k1] using hi) (by
      obtain ⟨i, b1, b2, b3, b4⟩ := hlow
      cases i
      · left
        intro r hr
        simp only [Ctx.limits, k1, k2, k3] at hr
        exact length_low b1 b2 b3 g1 b4 hr
      · right
        intro r hr
        simp only [Ctx.limits, k1, k2, k3] at hr
        exact length_low b1 b2 b3 g2 b4 hr) h4
  simp only [Ctx.limits, k3] at h e1 e2
  simp only [Ctx.gotoFollow, Ctx.gotoChannel, Option.bind_eq_bind, Option.bind_eq_some_iff, Option.pure_def, Option.some.injEq,
    k3] at h
  obtain ⟨c2, ⟨⟨s, u⟩, a1, _, -, rfl⟩, c3, ⟨⟨s', u'⟩, a2, _, -, rfl⟩, c4, a3, _, -, rfl⟩ := h
  obtain ⟨rfl, rfl⟩ := dist_one a1
  have q := segs_one a3
  simp only [Ctx.setCh, k3] at q a2
  obtain ⟨rfl, rfl⟩ := dist_one (by simpa using a2)
  cases i
  · refine ⟨by rw [abs_le] at e1 ⊢; simp only [pick]; omega, ?_⟩
    rw [q]
    simp [pick]
  · refine ⟨by rw [abs_le] at e2 ⊢; simp only [pick]; omega, ?_⟩
    rw [q]
    simp [pick]

end StepperPaths.Context

namespace StepperPaths.Raster
open Context

theorem line_big {p : Params} {img : Image} {yn startX lengthX rep : Nat} {c : Ctx} (hbig : ∃ i, 32768 < c.aMax i)
    (ha : 0 < c.aMax .x) (h0 : ∀ i, c.channels i = ⟨0, 0, 0⟩) (hv : 2 ≤ p.vX) (hv' : p.vX < 2 ^ 31) :
    line p img true yn startX lengthX rep c = none := by
  cases h : line p img true yn startX lengthX rep c with
  | none => rfl
  | some c' =>
    exfalso
    simp only [line, Option.bind_eq_bind, Option.bind_eq_some_iff] at h
    obtain ⟨ls, -, x, hx, y, -, c1, h1, -⟩ := h
    simp only [lineX, Option.bind_eq_bind, Option.bind_eq_some_iff, Option.pure_def, Option.some.injEq] at hx
    obtain ⟨a, e1, b, e2, d, e3, rfl⟩ := hx
    obtain ⟨rfl, -⟩ := mulU32_eq e1
    obtain ⟨rfl, -⟩ := mulU32_eq e2
    obtain ⟨rfl, -⟩ := mulU32_eq e3
    have hu : (asU32 p.vX : Int) = p.vX := by unfold asU32; omega
    have hg := h1
    simp only [Ctx.stepGotoSpeed, Option.bind_eq_bind, Option.bind_eq_some_iff, cassert] at hg
    obtain ⟨_, g1, -⟩ := hg
    have g2 : p.vX ≤ c.vMax .x := by by_contra hn; simp [hn] at g1
    have := (goto_big hbig ⟨.x, ha, by omega, by rw [h0]; simp only; omega, by rw [h0]; simp only [pick, if_true]; omega⟩ h1 .x).1
    rw [h0] at this
    simp only [pick, if_true, abs_le] at this
    push_cast at this
    rw [hu] at this
    rcases Nat.eq_zero_or_pos (p.resX * ls) with hz | hz
    · have : (p.resX : Int) * 2 * p.vX * ls = 0 := by
        have : ((p.resX * ls : ℕ) : Int) = 0 := by rw [hz]; rfl
        push_cast at this
        linear_combination 2 * p.vX * this
      omega
    · have : p.vX * 2 ≤ (p.resX : Int) * 2 * p.vX * ls := by
        have : (1 : Int) ≤ p.resX * ls := by exact_mod_cast hz
        nlinarith
      omega

theorem rows_big {p : Params} {img : Image} {c : Ctx} (hbig : ∃ i, 32768 < c.aMax i)
    (ha : 0 < c.aMax .x) (h0 : ∀ i, c.channels i = ⟨0, 0, 0⟩) (hv : 2 ≤ p.vX) (hv' : p.vX < 2 ^ 31) (hr : 0 < p.resY) :
    ∀ (n yn : Nat) (s : Bool × Ctx), (∃ x y, x < img.width ∧ yn ≤ y ∧ y < yn + n ∧ img.pixel x y < 255) →
      rows p img yn n (true, c) ≠ some s := by
  intro n
  induction n with
  | zero => intro yn s ⟨x, y, _, _, _, _⟩; omega
  | succ n ih =>
    intro yn s ⟨x, y, hx, hy, hy', hp⟩ h
    simp only [rows, Option.bind_eq_bind] at h
    rcases hq : findRowInterval (marked img yn) img.width with ⟨a, b⟩
    obtain ⟨-, -, s3⟩ := findRowInterval_spec (marked img yn) img.width _ _ hq
    rw [hq] at h
    split at h <;> simp only [Option.bind_eq_some_iff] at h <;> obtain ⟨s1, h1, h2⟩ := h
    · obtain ⟨k, hk⟩ : ∃ k, p.resY = k + 1 := ⟨p.resY - 1, by omega⟩
      rw [hk] at h1
      simp only [lines, line_big hbig ha h0 hv hv', Option.bind_eq_bind, Option.bind_none, reduceCtorEq] at h1
    · obtain rfl := Option.some.inj h1
      refine ih _ _ ⟨x, y, hx, ?_, by omega, hp⟩ h2
      rcases Nat.eq_or_lt_of_le hy with rfl | hlt
      · have := s3.1 (by omega) x hx
        simp [marked, hp] at this
      · exact hlt

theorem raster_big {p : Params} {img : Image} {aMax vMax : Axis → Int} (hbig : ∃ i, 32768 < aMax i)
    (ha : 0 ≤ aMax .x) (hv : 2 ≤ p.vX) (hv' : p.vX < 2 ^ 31) (hr : 0 < p.resY)
    (hp : ∃ x y, x < img.width ∧ y < img.height ∧ img.pixel x y < 255) : raster p img (Ctx.new aMax vMax) = none := by
  rcases ha.eq_or_lt with h | h
  · exact stuck_raster ⟨.x, .inl h.symm⟩
  · cases hs : raster p img (Ctx.new aMax vMax) with
    | none => rfl
    | some c' =>
      exfalso
      simp only [raster, Option.bind_eq_bind, Option.bind_eq_some_iff] at hs
      obtain ⟨_, -, s, h1, -⟩ := hs
      obtain ⟨x, y, hx, hy, hq⟩ := hp
      exact rows_big (c := (Ctx.new aMax vMax).setWeight p.weight) hbig h (fun _ => rfl) hv hv' hr _ 0 s
        ⟨x, y, hx, by omega, by omega, hq⟩ h1

end StepperPaths.Raster
