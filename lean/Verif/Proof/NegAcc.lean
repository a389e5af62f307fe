import Verif.Proof.BigAcc
import Verif.Proof.AnySpeed

/-! Negative limits of the acceleration: no run of `image_raster` ends. -/

namespace StepperPaths.MultiRange

variable {α : Type*} [LinearOrder α]

theorem rmax_or (a b : α) : rmax a b = a ∨ rmax a b = b := by
  unfold rmax
  split
  · exact .inl rfl
  · exact .inr rfl

theorem gather_from {Q : α → Prop} {r1 : α × α} (h1 : Q r1.1) : ∀ {rest : List (α × α)} {r2 : α × α}, Q r2.1 → (∀ p ∈ rest, Q p.1) →
    (∀ p ∈ (gather r1 r2 rest).1, Q p.1) ∧ Q (gather r1 r2 rest).2.1.1 ∧ ∀ p ∈ (gather r1 r2 rest).2.2, Q p.1 := by
  intro rest
  induction rest with
  | nil => intro r2 h _; simp [gather, h]
  | cons rn rs ih =>
    intro r2 h hr
    unfold gather
    split
    · exact ⟨by simp, h, hr⟩
    · obtain ⟨g1, g2, g3⟩ := ih (hr rn (by simp)) (fun p hp => hr p (by simp [hp]))
      refine ⟨fun p hp => ?_, g2, g3⟩
      rcases List.mem_cons.1 hp with rfl | hp
      · rcases rmax_or r1.1 rn.1 with e | e
        · simp only [e]; exact h1
        · simp only [e]; exact hr rn (by simp)
      · exact g1 p hp

theorem andLoop_from {Q : α → Prop} : ∀ {l : List (α × α)} {r2 : α × α} {rest : List (α × α)}, (∀ p ∈ l, Q p.1) → Q r2.1 →
    (∀ p ∈ rest, Q p.1) → ∀ p ∈ andLoop l r2 rest, Q p.1 := by
  intro l
  induction l with
  | nil => intro r2 rest _ _ _ p hp; simp [andLoop] at hp
  | cons r1 rs1 ih =>
    intro r2 rest hl h2 hr p hp
    unfold andLoop at hp
    split at hp
    · simp at hp
    · rename_i r2' rest' he
      obtain ⟨m1, m2⟩ := skipTo_mem he
      have all : ∀ q ∈ r2 :: rest, Q q.1 := by
        intro q hq
        rcases List.mem_cons.1 hq with rfl | hq
        · exact h2
        · exact hr q hq
      obtain ⟨g1, g2, g3⟩ := gather_from (hl r1 (by simp)) (all _ m1) (fun q hq => all q (m2 q hq))
      simp only [List.append_assoc, List.mem_append] at hp
      rcases hp with hp | hp | hp
      · split at hp
        · rw [List.mem_singleton] at hp
          subst hp
          rcases rmax_or r1.1 r2'.1 with e | e
          · simp only [e]; exact hl r1 (by simp)
          · simp only [e]; exact all _ m1
        · simp at hp
      · exact g1 p hp
      · exact ih (fun q hq => hl q (by simp [hq])) g2 g3 p hp

/-- The ranges of an intersection begin where a range of an operand begins. -/
theorem andRange_from {Q : α → Prop} {m o : MultiRange α} (hm : ∀ p ∈ m.ranges, Q p.1) (ho : ∀ p ∈ o.ranges, Q p.1) :
    ∀ p ∈ (m.andRange o).ranges, Q p.1 := by
  unfold andRange
  cases h : o.ranges with
  | nil => simp
  | cons r2 rest =>
    rw [h] at ho
    exact andLoop_from hm (ho r2 (by simp)) (fun p hp => ho p (by simp [hp]))

end StepperPaths.MultiRange

namespace StepperPaths.IntegerCurve
open Solve

/-- At rest the lengths that `max_acceleration_curve` allows are positive. -/
theorem maxAcc_rest {ds a : Int} {r : MultiRange Int} (h : maxAccelerationCurve ds 0 0 a = some r) : ∀ p ∈ r.ranges, 1 ≤ p.1 := by
  simp only [maxAccelerationCurve, Option.bind_eq_bind, Option.bind_eq_some_iff] at h
  obtain ⟨tmin, h1, h⟩ := h
  have ht : 1 = tmin := by simpa [minTime] using h1
  have rng : ∀ p ∈ (MultiRange.range tmin i64Max).ranges, 1 ≤ p.1 := by
    intro p hp
    rw [MultiRange.range, List.mem_singleton] at hp
    subst hp
    exact ht.le
  split at h
  · obtain rfl := Option.some.inj h
    exact rng
  · simp only [Option.bind_eq_some_iff] at h
    obtain ⟨xmin, -, h⟩ := h
    split at h
    · obtain rfl := Option.some.inj h
      exact rng
    · simp only [Option.bind_eq_some_iff] at h
      obtain ⟨lim, -, h⟩ := h
      unfold gapRange at h
      split at h
      · simp only [Option.bind_eq_bind, Option.bind_eq_some_iff, Option.pure_def, Option.some.injEq] at h
        obtain ⟨r1, -, r2, -, rfl⟩ := h
        exact fun p hp => ht.le.trans (MultiRange.and_low p hp)
      · simp at h

/-- To stay where it is, `speed_limited_curve` offers no time of zero if the acceleration is negative. -/
theorem speedLimited_rest {a vmax : Int} {r : MultiRange Int} (ha : a < 0) (hv : 0 ≤ vmax) (h : speedLimitedCurve 0 0 0 a vmax = some r) :
    ∀ p ∈ r.ranges, p.1 ≠ 0 := by
  simp only [speedLimitedCurve, Option.bind_eq_bind, Option.bind_eq_some_iff] at h
  obtain ⟨_, -, h⟩ := h
  split at h
  · rename_i hs
    simp only [Option.bind_eq_some_iff, cdiv] at h
    obtain ⟨q, hq', h⟩ := h
    split at hq'
    · cases hq'
    rename_i hv0
    obtain rfl := Option.some.inj hq'
    unfold MultiRange.or at h
    split at h
    · obtain rfl := Option.some.inj h
      intro p hp
      simp only [MultiRange.orBody, MultiRange.new, MultiRange.orJoin, List.dropWhile_nil, List.takeWhile_nil, List.nil_append,
        List.mem_singleton] at hp
      subst hp
      have e1 := Int.mul_fdiv_add_fmod (vmax - 0 + a - 1) a
      obtain ⟨e2, e3⟩ : a < Int.fmod (vmax - 0 + a - 1) a ∧ Int.fmod (vmax - 0 + a - 1) a ≤ 0 := by
        have := Int.fmod_nonneg_of_pos (-(vmax - 0 + a - 1)) (show 0 < -a by omega)
        have := Int.fmod_lt_of_pos (-(vmax - 0 + a - 1)) (show 0 < -a by omega)
        rw [Int.neg_fmod_neg] at *
        omega
      generalize Int.fdiv (vmax - 0 + a - 1) a = t at *
      generalize Int.fmod (vmax - 0 + a - 1) a = d at *
      obtain ⟨b, rfl⟩ : ∃ b, a = -b := ⟨-a, by ring⟩
      obtain ⟨n, rfl⟩ : ∃ n, t = -n := ⟨-t, by ring⟩
      obtain ⟨e, rfl⟩ : ∃ e, d = e - b - 1 := ⟨d + b + 1, by ring⟩
      have hV : vmax = b * n + e := by linarith
      have hb : 0 < b := by omega
      have he : 2 ≤ e ∧ e ≤ b + 1 := by omega
      have hs' : e ≤ b * n * n := by linarith
      have hn : 1 ≤ n := by
        by_contra hc
        have : n ≤ -1 := by
          rcases eq_or_lt_of_le (show n ≤ 0 by omega) with h | h
          · subst h; omega
          · omega
        rcases eq_or_lt_of_le this with h | h
        · subst h; omega
        · have : b * n ≤ b * (-2) := mul_le_mul_of_nonneg_left (by omega) hb.le
          omega
      rw [Int.tdiv_eq_ediv_of_nonneg (by omega)]
      have key : (0 - ((2 * 0 + -n * -b) * -n + (e - b - 1 - (-b - 1)) + (2 * 0 + -n * -b) * -n + (e - b - 1 - (-b - 1))) + 2 * vmax - 1) / (2 * vmax)
          < 2 * n := by
        refine Int.ediv_lt_of_lt_mul (by omega) ?_
        subst hV
        nlinarith
      show -n + -n + _ ≠ 0
      omega
    · simp at h
  · obtain rfl := Option.some.inj h
    simp [MultiRange.new]

/-- To stay where it is takes no time of zero. -/
theorem length_rest {a vmax : Int} {r : MultiRange Int} (ha : a < 0) (hv : 0 ≤ vmax) (h : shortestCurveLength 0 0 0 a vmax = some r) :
    ∀ p ∈ r.ranges, p.1 ≠ 0 := by
  simp only [shortestCurveLength, sideLengths, Option.bind_eq_bind, Option.bind_eq_some_iff, Option.pure_def, Option.some.injEq] at h
  obtain ⟨pos, ⟨r1, h1, h2⟩, neg, ⟨r2, h3, h4⟩, rfl⟩ := h
  refine MultiRange.andRange_from (Q := fun x : Int => x ≠ 0) ?_ ?_
  · split at h2
    · intro p hp
      have := maxAcc_rest h2 p hp
      omega
    · obtain rfl := Option.some.inj h2
      exact speedLimited_rest ha hv h1
  · rw [neg_zero] at h3 h4
    split at h4
    · intro p hp
      have := maxAcc_rest h4 p hp
      omega
    · obtain rfl := Option.some.inj h4
      exact speedLimited_rest ha hv h3

/-- With a negative limit of the acceleration a curve may only get faster, or nothing happens. -/
theorem accSeq_neg {t ds v0 vn a : Int} {p : DistancePath} {s : List AccSegment} (ha : a < 0) (h : adjustCurve t ds v0 vn a = some p)
    (hs : p.accSeq = some s) : v0 < vn ∨ t = 0 ∧ v0 = vn := by
  obtain ⟨h1, h2, h3, h4, -⟩ := adjust_total h
  subst h1 h2 h3 h4
  unfold DistancePath.accSeq at hs
  simp only [Option.bind_eq_bind] at hs
  split at hs
  · split at hs
    · rename_i h0
      simp only [Option.bind_eq_some_iff, cassert] at hs
      obtain ⟨_, k, -⟩ := hs
      split at k
      · rename_i hv
        exact .inr ⟨h0, hv⟩
      · cases k
    · simp only [Option.bind_eq_some_iff, cassert] at hs
      obtain ⟨_, k, -⟩ := hs
      split at k
      · rename_i hv
        exact .inl (by omega)
      · cases k
  · simp only [Option.bind_eq_some_iff] at hs
    obtain ⟨_, -, _, k, -⟩ := hs
    simp [divRemAway, cassert, not_lt.2 ha.le] at k

/-- No time at all. -/
theorem accSeq_none {ds v0 vn a : Int} {p : DistancePath} {s : List AccSegment} (h : adjustCurve 0 ds v0 vn a = some p)
    (hs : p.accSeq = some s) : v0 = vn ∧ s = [] := by
  obtain ⟨h1, h2, h3, h4, -⟩ := adjust_total h
  subst h2 h3 h4
  unfold DistancePath.accSeq at hs
  simp only [Option.bind_eq_bind, h1] at hs
  rw [if_pos (by norm_num), if_pos trivial] at hs
  simp only [Option.bind_eq_some_iff, cassert] at hs
  obtain ⟨_, k, e⟩ := hs
  split at k
  · rename_i hv
    exact ⟨hv, (Option.some.inj e).symm⟩
  · cases k

/-- Two axes, one of which has a negative limit of the acceleration. -/
theorem sequences_neg {lx ly : PathLimits} {sx sy : List AccSegment} (h : shortestCurveSequences [lx, ly] = some [sx, sy])
    {l : PathLimits} (hl : l = lx ∨ l = ly) (ha : l.a < 0) :
    l.v0 < l.vn ∨ (∀ k, k = lx ∨ k = ly → k.v0 = k.vn) ∧ sx = [] ∧ sy = [] ∧
      ¬ ∀ k, k = lx ∨ k = ly → ∀ r, shortestCurveLength k.ds k.v0 k.vn k.a k.vmax = some r → ∀ p ∈ r.ranges, p.1 ≠ 0 := by
  simp only [shortestCurveSequences, commonLengths, Option.bind_eq_bind, Option.bind_eq_some_iff, Option.some.injEq] at h
  obtain ⟨r0, hr0, r, ⟨m1, h1, m2, h2, hr⟩, ⟨t, u⟩, h3, h4⟩ := h
  simp only [List.mapM_cons, List.mapM_nil, Option.bind_eq_bind, Option.bind_eq_some_iff, Option.pure_def, Option.some.injEq] at h4
  obtain ⟨sx', ⟨px, a1, a2⟩, l1, ⟨sy', ⟨py, b1, b2⟩, l2, rfl, rfl⟩, h4⟩ := h4
  simp only [List.cons.injEq, and_true] at h4
  obtain ⟨rfl, rfl⟩ := h4
  have key : l.v0 < l.vn ∨ t = 0 ∧ l.v0 = l.vn := by
    rcases hl with rfl | rfl
    · exact accSeq_neg ha a1 a2
    · exact accSeq_neg ha b1 b2
  refine key.imp_right fun ht => ?_
  replace ht := ht.1
  subst ht
  obtain ⟨c1, c2⟩ := accSeq_none a1 a2
  obtain ⟨d1, d2⟩ := accSeq_none b1 b2
  refine ⟨by rintro k (rfl | rfl) <;> assumption, c2, d2, fun hn => ?_⟩
  obtain ⟨p, hp, hpt⟩ := MultiRange.bounds_mem h3
  rw [← hr] at hp
  refine MultiRange.andRange_from (Q := fun x => x ≠ 0) (MultiRange.andRange_from (Q := fun x => x ≠ 0) ?_ (hn lx (.inl rfl) _ h1)) (hn ly (.inr rfl) _ h2) p hp hpt
  intro q hq
  simp [MultiRange.or, MultiRange.orBody, MultiRange.new, MultiRange.orJoin, i64Min, i64Max] at hr0
  subst hr0
  simp at hq
  subst hq
  norm_num

end StepperPaths.IntegerCurve

namespace StepperPaths.Proof
open Context Control Spec IntegerCurve Config Raster Props Special
open Draw (Pen Seg)

variable {aMax vMax : Axis → ℤ}

/-- What a move does on an axis with a negative limit of the acceleration. -/
theorem goto_neg {c c' : Ctx} (S : Sync aMax vMax c) {i : Axis} (ha : aMax i < 0) {x y vx vy : ℤ} (h : c.stepGotoSpeed x y vx vy = some c') :
    (∀ j, (c'.channels j).v = both vx vy j) ∧ ((c.channels i).v < both vx vy i ∨
      (∀ j, c'.channels j = c.channels j) ∧ ((∀ j, aMax j ≠ 0 ∧ 0 ≤ vMax j ∧ (0 < aMax j → 0 < vMax j)) →
        ¬ ∀ j, (c.channels j).v = 0 ∧ (c.channels j).pos = both x y j)) := by
  have ha' := S.reach.inv.2.2.1
  have hv' := S.reach.inv.2.2.2.1
  obtain ⟨sx, sy, hs, -, M, e1, e2, -, -⟩ := goto_spec S.inv.1 h
  have hv : ∀ j, (c'.channels j).v = both vx vy j := fun j => by
    rw [M.ch j]
    cases j
    · exact e1
    · exact e2
  refine ⟨hv, ?_⟩
  have key := sequences_neg hs (l := c.limits i (both x y i) (both vx vy i)) (by cases i <;> simp [both]) (by simpa [Ctx.limits, ha'] using ha)
  refine key.imp_right fun ⟨k1, k2, k3, k4⟩ => ⟨fun j => ?_, fun hl hz => k4 fun k hk r hr => ?_⟩
  · rw [M.ch j]
    cases j <;> simp [both, k2, k3, expand, Spec.dist, endVel]
  · have : ∃ j, k = c.limits j (both x y j) (both vx vy j) := by
      rcases hk with rfl | rfl
      · exact ⟨.x, rfl⟩
      · exact ⟨.y, rfl⟩
    obtain ⟨j, rfl⟩ := this
    have e0 : (c.channels j).v = both vx vy j := k1 _ hk
    obtain ⟨z1, z2⟩ := hz j
    rw [z1] at e0
    simp only [Ctx.limits, ← e0, z1, z2, sub_self, ha', hv'] at hr
    obtain ⟨l1, l2, l3⟩ := hl j
    rcases lt_or_gt_of_ne l1 with l | l
    · exact length_rest l l2 hr
    · intro p hp
      have := length_low l (l3 l) l2 l2 (by have := l3 l; omega) hr p hp
      omega

/-- An axis with a negative limit of the acceleration has started, or nothing has happened. -/
structure Waiting (aMax vMax : Axis → ℤ) (c : Ctx) : Prop where
  sync : Sync aMax vMax c
  yet : ∀ i, aMax i < 0 → 0 < (c.channels i).v ∨ ∀ j, (c.channels j).v = 0 ∧ (c.channels j).pos = 0

theorem Waiting.scans : Scans (Waiting aMax vMax) (fun _ => True) where
  mark {c c' w} h hc := by
    obtain ⟨S, q1, -⟩ := Draw.weight_now h.sync hc
    exact ⟨S, by rw [q1]; exact h.yet⟩
  goto {c c' x y vx} h _ hc := by
    refine ⟨(Sync.keeps aMax vMax).cgoto h.sync hc, fun i hi => ?_⟩
    obtain ⟨g1, g2⟩ := goto_neg h.sync hi (Checked.stepGotoSpeed_le _ _ _ _ _ _ hc)
    have hy := h.yet i hi
    rcases g2 with g2 | ⟨g2, -⟩
    · left
      rw [g1]
      rcases hy with hy | hy
      · omega
      · have := (hy i).1
        omega
    · simp only [g2]
      exact hy
  wait {c c' n} h hn hc := by
    refine ⟨(Sync.keepsScan aMax vMax fun _ => True).wait h.sync hn hc, fun i hi => ?_⟩
    obtain ⟨M, -⟩ := addAccInterval_spec h.sync.inv.1 (by norm_num at hn; exact hn) hc
    have z : ∀ i, both (0 : ℤ) 0 i = 0 := fun i => by cases i <;> rfl
    have ev : ∀ (v : ℤ) m, endVel v (List.replicate m 0) = v := fun v m => by induction m with
      | zero => rfl
      | succ m ih => simpa [List.replicate_succ, endVel] using ih
    have dz : ∀ m, Spec.dist 0 (List.replicate m 0) = 0 := fun m => by induction m with
      | zero => rfl
      | succ m ih => simpa [List.replicate_succ, Spec.dist] using ih
    refine (h.yet i hi).imp (fun hy => ?_) fun hy j => ?_
    · rw [M.ch i]
      simp only [z, ev]
      exact hy
    · obtain ⟨y1, y2⟩ := hy j
      rw [M.ch j]
      simp only [z, ev, y1, y2, dz]
      simp
  read {c c'} h hc := by
    obtain ⟨q1, -⟩ := read_past h.sync hc
    exact ⟨(Sync.keeps aMax vMax).read h.sync hc, by rw [q1]; exact h.yet⟩

theorem Waiting.turns (v : ℤ) : Turns (Waiting aMax vMax) (fun _ => True) v := ⟨trivial, trivial, fun _ _ => trivial⟩

/-- With a negative limit of the acceleration no run of `image_raster` ends. -/
theorem neg_raster {i : Axis} (ha : aMax i < 0) (p : Params) (img : Image) : Checked.raster p img (Ctx.new aMax vMax) = none := by
  cases h : Checked.raster p img (Ctx.new aMax vMax) with
  | none => rfl
  | some c' =>
    exfalso
    have ns : ¬ Stuck aMax vMax := fun s => by
      rw [Rounded.stuck_checkedRaster (c := Ctx.new aMax vMax) s] at h
      cases h
    obtain ⟨-, hN, b, c1, c2, e1, e2, -⟩ := raster_last h
    have W : Waiting aMax vMax ((Ctx.new aMax vMax).setWeight p.weight) :=
      ⟨.step (op := .setWeight p.weight) .new trivial rfl, fun i _ => .inr fun j => by simp [Ctx.new, Ctx.setWeight]⟩
    have W1 : Waiting aMax vMax c1 := Waiting.scans.rows (Waiting.turns _) hN (s := (true, _)) W (by simp) e1
    obtain ⟨-, g⟩ := goto_neg W1.sync ha (Checked.stepGotoSpeed_le _ _ _ _ _ _ e2)
    have z : ∀ i, both (0 : ℤ) 0 i = 0 := fun i => by cases i <;> rfl
    simp only [z] at g
    have y := W1.yet i ha
    rcases g with g | ⟨g1, g2⟩
    · rcases y with y | y
      · omega
      · have := (y i).1
        omega
    · rcases y with y | y
      · obtain ⟨k, -⟩ := goto_neg W1.sync ha (Checked.stepGotoSpeed_le _ _ _ _ _ _ e2)
        have := k i
        rw [g1, z] at this
        omega
      · refine g2 (fun j => ⟨fun h => ns ⟨j, .inl h⟩, ?_, fun h => ?_⟩) y
        · by_contra hc
          exact ns ⟨j, .inr (.inl (by omega))⟩
        · by_contra hc
          rcases lt_or_eq_of_le (not_lt.1 hc) with k | k
          · exact ns ⟨j, .inr (.inl k)⟩
          · exact ns ⟨j, .inr (.inr ⟨k, h⟩)⟩

end StepperPaths.Proof
