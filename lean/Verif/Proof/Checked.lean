import Verif.Model.Checked
import Verif.Proof.IntegerCurve.Final

/-! The checked arithmetic agrees with the unbounded one: always when it returns, and it returns
under bounds on the arguments. -/

namespace StepperPaths.Checked
open Solve IntegerCurve

/-! ### A calculus of magnitudes -/

/-- A bound for the magnitude of an integer. -/
class Mag (v : Int) (m : outParam ℕ) : Prop where
  le : |v| ≤ m

/-- A formula with its unbounded value and a bound for all intermediate results. -/
class Ev (o : Option Int) (v : outParam Int) (m : outParam ℕ) : Prop where
  ok : m < 2 ^ 63 → o = some v
  mag : |v| ≤ m
  sound : ∀ w, o = some w → w = v

theorem ck_eq {x : Int} (h : |x| < 2 ^ 63) : ck x = some x := by
  unfold ck i64Min i64Max
  rw [abs_lt] at h
  norm_num at h
  rw [if_pos (by omega)]

theorem ck_sound {x w : Int} (h : ck x = some w) : w = x := by
  unfold ck at h
  split at h
  · exact (Option.some.inj h).symm
  · simp at h

/-- Without a better bound. -/
instance (priority := low) Mag.self (v : Int) : Mag v v.natAbs := ⟨by rw [Int.abs_eq_natAbs]⟩
instance Mag.lit (n : ℕ) [n.AtLeastTwo] : Mag (OfNat.ofNat n) n := ⟨by rw [Nat.abs_ofNat]; rfl⟩
instance Mag.one : Mag 1 1 := ⟨by simp⟩
instance Mag.zero : Mag 0 0 := ⟨by simp⟩
instance Mag.cast (n : ℕ) : Mag (n : Int) n := ⟨by simp⟩
instance Mag.neg {v : Int} {m : ℕ} [h : Mag v m] : Mag (-v) m := ⟨by rw [abs_neg]; exact h.le⟩
instance Mag.abs {v : Int} {m : ℕ} [h : Mag v m] : Mag |v| m := ⟨by rw [abs_abs]; exact h.le⟩
instance Mag.add {v w : Int} {m n : ℕ} [h : Mag v m] [k : Mag w n] : Mag (v + w) (m + n) :=
  ⟨by push_cast; exact (abs_add_le v w).trans (add_le_add h.le k.le)⟩
instance Mag.sub {v w : Int} {m n : ℕ} [h : Mag v m] [k : Mag w n] : Mag (v - w) (m + n) :=
  ⟨by push_cast; exact (abs_sub v w).trans (add_le_add h.le k.le)⟩
instance Mag.mul {v w : Int} {m n : ℕ} [h : Mag v m] [k : Mag w n] : Mag (v * w) (m * n) :=
  ⟨by push_cast; rw [abs_mul]; exact mul_le_mul h.le k.le (abs_nonneg _) ((abs_nonneg _).trans h.le)⟩

theorem abs_tdiv_le (v w : Int) : |Int.tdiv v w| ≤ |v| := by
  rw [Int.abs_eq_natAbs, Int.abs_eq_natAbs, Int.natAbs_tdiv]
  exact_mod_cast Nat.div_le_self _ _

instance Mag.tdiv {v w : Int} {m : ℕ} [h : Mag v m] : Mag (Int.tdiv v w) m := ⟨(abs_tdiv_le v w).trans h.le⟩

instance Ev.some {v : Int} {m : ℕ} [h : Mag v m] : Ev (some v) v m :=
  ⟨fun _ => rfl, h.le, fun _ h => (Option.some.inj h).symm⟩
instance Ev.two : Ev (2 : Option Int) 2 2 := ⟨fun _ => rfl, by simp, fun _ h => (Option.some.inj h).symm⟩
instance Ev.one : Ev (1 : Option Int) 1 1 := ⟨fun _ => rfl, by simp, fun _ h => (Option.some.inj h).symm⟩
instance Ev.zero : Ev (0 : Option Int) 0 0 := ⟨fun _ => rfl, by simp, fun _ h => (Option.some.inj h).symm⟩

theorem bind2_sound {x y : Option Int} {v w u : Int} {f : Int → Int → Option Int}
    (hx : ∀ w, x = some w → w = v) (hy : ∀ u, y = some u → u = w) (h : (x.bind fun a => y.bind fun b => f a b) = some u) :
    f v w = some u := by
  obtain ⟨a, h1, h⟩ := Option.bind_eq_some_iff.1 h
  obtain ⟨b, h2, h⟩ := Option.bind_eq_some_iff.1 h
  rw [hx a h1, hy b h2] at h
  exact h

instance Ev.add {x y : Option Int} {v w : Int} {m n : ℕ} [h : Ev x v m] [k : Ev y w n] :
    Ev (x +? y) (v + w) (m + n) where
  mag := (Mag.add (h := ⟨h.mag⟩) (k := ⟨k.mag⟩)).le
  ok hlt := by
    have := (Mag.add (h := ⟨h.mag⟩) (k := ⟨k.mag⟩)).le
    unfold Checked.add
    rw [h.ok (by omega), k.ok (by omega)]
    exact ck_eq (lt_of_le_of_lt this (by exact_mod_cast hlt))
  sound u hu := ck_sound (bind2_sound h.sound k.sound hu)

instance Ev.sub {x y : Option Int} {v w : Int} {m n : ℕ} [h : Ev x v m] [k : Ev y w n] :
    Ev (x -? y) (v - w) (m + n) where
  mag := (Mag.sub (h := ⟨h.mag⟩) (k := ⟨k.mag⟩)).le
  ok hlt := by
    have := (Mag.sub (h := ⟨h.mag⟩) (k := ⟨k.mag⟩)).le
    unfold Checked.sub
    rw [h.ok (by omega), k.ok (by omega)]
    exact ck_eq (lt_of_le_of_lt this (by exact_mod_cast hlt))
  sound u hu := ck_sound (bind2_sound h.sound k.sound hu)

instance Ev.mul {x y : Option Int} {v w : Int} {m n : ℕ} [h : Ev x v m] [k : Ev y w n] :
    Ev (x *? y) (v * w) (m * n + m + n) where
  mag := by
    have := (Mag.mul (h := ⟨h.mag⟩) (k := ⟨k.mag⟩)).le
    push_cast at this ⊢
    omega
  ok hlt := by
    have := (Mag.mul (h := ⟨h.mag⟩) (k := ⟨k.mag⟩)).le
    unfold Checked.mul
    rw [h.ok (by omega), k.ok (by omega)]
    refine ck_eq (lt_of_le_of_lt this ?_)
    have : m * n < 2 ^ 63 := by omega
    exact_mod_cast this
  sound u hu := ck_sound (bind2_sound h.sound k.sound hu)

instance Ev.neg {x : Option Int} {v : Int} {m : ℕ} [h : Ev x v m] : Ev (neg x) (-v) m where
  mag := by rw [abs_neg]; exact h.mag
  ok hlt := by
    unfold Checked.neg
    rw [h.ok hlt]
    refine ck_eq ?_
    rw [abs_neg]
    exact lt_of_le_of_lt h.mag (by exact_mod_cast hlt)
  sound u hu := by
    obtain ⟨a, h1, h2⟩ := Option.bind_eq_some_iff.1 hu
    rw [← h.sound a h1]
    exact ck_sound h2

instance Ev.abs {x : Option Int} {v : Int} {m : ℕ} [h : Ev x v m] : Ev (abs x) |v| m where
  mag := by rw [abs_abs]; exact h.mag
  ok hlt := by
    unfold Checked.abs
    rw [h.ok hlt]
    refine ck_eq ?_
    rw [abs_abs]
    exact lt_of_le_of_lt h.mag (by exact_mod_cast hlt)
  sound u hu := by
    obtain ⟨a, h1, h2⟩ := Option.bind_eq_some_iff.1 hu
    rw [← h.sound a h1]
    exact ck_sound h2

/-- A divisor that is not zero. -/
class NZ (v : Int) : Prop where
  ne : v ≠ 0

instance : NZ 2 := ⟨by norm_num⟩
instance {v : Int} [h : NZ v] : NZ (2 * v) := ⟨mul_ne_zero (by norm_num) h.ne⟩

/-- Division, with a zero divisor as panic on both sides. -/
theorem div_eq {x y : Option Int} {v w : Int} {m n : ℕ} [h : Ev x v m] [k : Ev y w n]
    (hm : m < 2 ^ 63) (hn : n < 2 ^ 63) : x /? y = cdiv v w := by
  unfold Checked.div
  rw [h.ok hm, k.ok hn]
  simp only [Option.bind_some]
  unfold cdiv
  split
  · rfl
  · exact ck_eq (lt_of_le_of_lt ((abs_tdiv_le v w).trans h.mag) (by exact_mod_cast hm))

theorem div_sound {x y : Option Int} {v w : Int} {m n : ℕ} [h : Ev x v m] [k : Ev y w n] (u : Int)
    (hu : x /? y = some u) : cdiv v w = some u := by
  have := bind2_sound h.sound k.sound hu
  obtain ⟨q, h1, h2⟩ := Option.bind_eq_some_iff.1 this
  rw [h1, ck_sound h2]

instance Ev.div {x y : Option Int} {v w : Int} {m n : ℕ} [h : Ev x v m] [k : Ev y w n] [z : NZ w] :
    Ev (x /? y) (Int.tdiv v w) (m + n) where
  mag := by
    have := (abs_tdiv_le v w).trans h.mag
    push_cast
    omega
  ok hlt := by
    rw [div_eq (by omega) (by omega)]
    unfold cdiv
    rw [if_neg z.ne]
  sound u hu := by
    have := div_sound u hu
    unfold cdiv at this
    rw [if_neg z.ne] at this
    exact (Option.some.inj this).symm

theorem rem_eq {x y : Option Int} {v w : Int} {m n : ℕ} [h : Ev x v m] [k : Ev y w n]
    (hm : m < 2 ^ 63) (hn : n < 2 ^ 63) : x %? y = crem v w := by
  unfold Checked.rem
  rw [h.ok hm, k.ok hn]
  simp only [Option.bind_some]
  unfold cdiv crem
  split
  · rfl
  · simp only [Option.bind_some]
    rw [ck_eq (lt_of_le_of_lt ((abs_tdiv_le v w).trans h.mag) (by exact_mod_cast hm))]
    rfl

theorem rem_sound {x y : Option Int} {v w : Int} {m n : ℕ} [h : Ev x v m] [k : Ev y w n] (u : Int)
    (hu : x %? y = some u) : crem v w = some u := by
  have := bind2_sound h.sound k.sound hu
  obtain ⟨q, h1, h2⟩ := Option.bind_eq_some_iff.1 this
  obtain ⟨_, -, h3⟩ := Option.bind_eq_some_iff.1 h2
  exact h3

theorem eval {o : Option Int} {v : Int} {m : ℕ} [h : Ev o v m] (hm : m < 2 ^ 63) : o = some v := h.ok hm

theorem bind_eval {α : Type} {o : Option Int} {v : Int} {m : ℕ} [h : Ev o v m] (f : Int → Option α)
    (hm : m < 2 ^ 63) : (o >>= f) = f v := by
  rw [h.ok hm]
  rfl

/-! ### What the checked functions return -/

/-- What the left side returns the right side returns. -/
def Le {α : Type} (o p : Option α) : Prop := ∀ w, o = some w → p = some w

theorem Le.refl {α : Type} (o : Option α) : Le o o := fun _ h => h

theorem Le.bind {α β : Type} {o p : Option α} {f g : α → Option β} (h : Le o p) (k : ∀ x, Le (f x) (g x)) :
    Le (o >>= f) (p >>= g) := by
  intro w hw
  obtain ⟨x, h1, h2⟩ := Option.bind_eq_some_iff.1 hw
  exact Option.bind_eq_some_iff.2 ⟨x, h x h1, k x w h2⟩

theorem Le.eval {α : Type} {o : Option Int} {v : Int} {m : ℕ} [h : Ev o v m] {f : Int → Option α} {p : Option α}
    (k : Le (f v) p) : Le (o >>= f) p := by
  intro w hw
  obtain ⟨x, h1, h2⟩ := Option.bind_eq_some_iff.1 hw
  rw [h.sound x h1] at h2
  exact k w h2

theorem Le.step {α β : Type} {o : Option α} {v : α} {f : α → Option β} {p : Option β} (h : Le o (some v))
    (k : Le (f v) p) : Le (o >>= f) p := by
  intro w hw
  obtain ⟨x, h1, h2⟩ := Option.bind_eq_some_iff.1 hw
  rw [← Option.some.inj (h x h1)] at h2
  exact k w h2

theorem Le.val {o : Option Int} {v : Int} {m : ℕ} [h : Ev o v m] : Le o (some v) := by
  intro w hw
  rw [h.sound w hw]

theorem Le.div {x y : Option Int} {v w : Int} {m n : ℕ} [Ev x v m] [Ev y w n] : Le (x /? y) (cdiv v w) :=
  fun u hu => div_sound u hu

theorem Le.rem {x y : Option Int} {v w : Int} {m n : ℕ} [Ev x v m] [Ev y w n] : Le (x %? y) (crem v w) :=
  fun u hu => rem_sound u hu

theorem Le.ck {α : Type} {x : Int} {f : Int → Option α} {p : Option α} (k : Le (f x) p) : Le (ck x >>= f) p := by
  intro w hw
  obtain ⟨y, h1, h2⟩ := Option.bind_eq_some_iff.1 hw
  rw [ck_sound h1] at h2
  exact k w h2

theorem Le.ite {α : Type} {c : Prop} [Decidable c] {a b a' b' : Option α} (h : Le a a') (k : Le b b') :
    Le (if c then a else b) (if c then a' else b') := by
  split
  · exact h
  · exact k

instance Ev.sqpoly {a b c x : Int} {m : ℕ} [h : Ev (a *? x *? x +? b *? x -? c) (a * x * x + b * x - c) m] :
    Ev (sqpoly a b c x) (Solve.sqpoly a b c x) m := h

theorem findRootLoop_le (a b c minx maxx miny maxy : Int) :
    Le (findRootLoop a b c minx maxx miny maxy) (some (Solve.findRootLoop a b c minx maxx miny maxy)) := by
  intro w h
  refine findRootLoop.partial_correctness a b c
    (fun minx maxx miny maxy w => some (Solve.findRootLoop a b c minx maxx miny maxy) = some w) ?_ minx maxx miny maxy w h
  clear h w minx maxx miny maxy
  intro rec ih minx maxx miny maxy w h
  rw [Solve.findRootLoop]
  split at h
  · rw [if_pos ‹_›]; exact h
  · rw [if_neg ‹_›]
    split at h
    · rw [if_pos ‹_›]; exact h
    · rw [if_neg ‹_›]
      refine Le.eval (o := maxx -? minx) ?_ w h
      clear h w
      by_cases hd : maxx - minx ≤ 1
      · rw [dif_pos hd, if_pos hd]
        split <;> exact Le.refl _
      · rw [dif_neg hd, if_neg hd]
        refine Le.eval (o := (minx +? maxx) /? 2) ?_
        refine Le.eval (o := sqpoly a b c _) ?_
        dsimp only
        split
        · exact ih _ _ _ _
        · exact ih _ _ _ _

theorem findRoot_le (a b c min max : Int) :
    Le (findRoot a b c min max) (some (Solve.findRoot a b c min max)) := by
  unfold findRoot Solve.findRoot
  refine Le.eval (Le.eval ?_)
  dsimp only
  split
  · exact Le.refl _
  · split
    · exact Le.refl _
    · split
      · exact Le.refl _
      · exact Le.bind (findRootLoop_le a b c min max _ _) (fun _ => Le.refl _)

theorem growLimit_le (a b c xmin limit : Int) :
    Le (growLimit a b c xmin limit) (Solve.growLimit a b c xmin limit) := by
  intro w h
  refine growLimit.partial_correctness a b c xmin (fun limit w => Solve.growLimit a b c xmin limit = some w) ?_ limit w h
  clear h w limit
  intro rec ih limit w h
  rw [Solve.growLimit]
  refine Le.eval (o := xmin +? limit) (Le.eval ?_) w h
  exact Le.ite (Le.eval (ih _)) (Le.refl _)

/-! ### integer_curve.rs -/

theorem divRemAway_le (a b : Int) : Le (divRemAway a b) (IntegerCurve.divRemAway a b) := by
  unfold divRemAway IntegerCurve.divRemAway
  refine Le.bind (Le.refl _) (fun _ => ?_)
  by_cases hb : b = 0
  · intro w hw
    obtain ⟨q, h1, -⟩ := Option.bind_eq_some_iff.1 hw
    have := div_sound q h1
    simp [cdiv, hb] at this
  · have _ : NZ b := ⟨hb⟩
    refine Le.eval ?_
    have : Le ((a : Option Int) %? b) (some (Int.tmod a b)) := fun w hw => by
      have := rem_sound w hw
      simpa [crem, hb] using this
    refine Le.step this ?_
    dsimp only
    refine Le.ite (Le.refl _) (Le.ite ?_ ?_)
    · exact Le.eval (Le.eval (Le.refl _))
    · exact Le.eval (Le.eval (Le.refl _))

theorem pathDistance_le (v0 vn vflat a t : Int) :
    Le (pathDistance v0 vn vflat a t) (IntegerCurve.pathDistance v0 vn vflat a t) := by
  unfold pathDistance IntegerCurve.pathDistance
  refine Le.eval (Le.bind (divRemAway_le _ _) (fun x => ?_))
  refine Le.eval (Le.bind (divRemAway_le _ _) (fun y => ?_))
  exact Le.eval (Le.eval Le.val)

theorem distance_le (p : DistancePath) : Le (distance p) p.distance := by
  intro w hw
  obtain ⟨a, h1, h2⟩ := Option.bind_eq_some_iff.1 hw
  obtain ⟨b, h3, h4⟩ := Option.bind_eq_some_iff.1 h2
  unfold DistancePath.distance
  have h3 := Le.val (o := (2 : Option Int) *? p.tAdjust) b h3
  cases h3
  rw [pathDistance_le _ _ _ _ _ _ h1, ck_sound h4]
  rfl

theorem stepChoice_le (p : DistancePath) : Le (stepChoice p) (IntegerCurve.stepChoice p) := by
  unfold stepChoice IntegerCurve.stepChoice
  split
  · split
    · refine Le.eval (Le.eval (Le.bind Le.rem (fun r => ?_)))
      split
      · exact Le.eval (Le.refl _)
      · exact Le.refl _
    · refine Le.bind (Le.refl _) (fun _ => Le.eval (Le.bind Le.rem (fun r => ?_)))
      split
      · exact Le.eval (Le.refl _)
      · exact Le.refl _
  · split
    · split
      · refine Le.eval (Le.bind Le.rem (fun r => ?_))
        split
        · exact Le.eval (Le.refl _)
        · exact Le.refl _
      · refine Le.bind (Le.refl _) (fun _ => Le.eval (Le.eval (Le.bind Le.rem (fun r => ?_))))
        split
        · exact Le.eval (Le.refl _)
        · exact Le.refl _
    · exact Le.refl _

theorem pushI_le {s : List AccSegment} {t a : Option Int} {v w : Int} {m n : ℕ} [Ev t v m] [Ev a w n] :
    Le (pushI s t a) (IntegerCurve.pushI s v w) := by
  unfold pushI IntegerCurve.pushI
  exact Le.eval (Le.bind (Le.refl _) (fun _ => Le.eval (Le.refl _)))

theorem pushUp_le (s : List AccSegment) (v0 vs a1 t1 dv1 : Int) :
    Le (pushUp s v0 vs a1 t1 dv1) (IntegerCurve.pushUp s v0 vs a1 t1 dv1) := by
  unfold pushUp IntegerCurve.pushUp
  exact Le.ite pushI_le (Le.bind pushI_le (fun _ => pushI_le))

theorem pushFlat_le (s : List AccSegment) (vs ve tFlat tStep : Int) :
    Le (pushFlat s vs ve tFlat tStep) (IntegerCurve.pushFlat s vs ve tFlat tStep) := by
  unfold pushFlat IntegerCurve.pushFlat
  exact Le.ite (Le.bind pushI_le (fun _ => Le.bind pushI_le (fun _ => pushI_le)))
    (Le.ite (Le.bind pushI_le (fun _ => Le.bind pushI_le (fun _ => pushI_le))) pushI_le)

theorem pushDown_le (s : List AccSegment) (vn ve a4 t4 dv4 : Int) :
    Le (pushDown s vn ve a4 t4 dv4) (IntegerCurve.pushDown s vn ve a4 t4 dv4) := by
  unfold pushDown IntegerCurve.pushDown
  exact Le.ite pushI_le (Le.bind pushI_le (fun _ => pushI_le))

theorem Le.sign {α : Type} {c : Prop} [Decidable c] {a : Int} {f : Int → Option α} {p : Option α}
    (k : Le (f (if c then a else -a)) p) : Le (signed c a >>= f) p := by
  unfold signed
  split at k
  · rw [if_pos ‹_›]; exact k
  · rw [if_neg ‹_›]; exact Le.eval k

theorem accSeq_le (p : DistancePath) : Le (accSeq p) p.accSeq := by
  unfold accSeq DistancePath.accSeq
  dsimp only
  refine Le.ite (Le.ite (Le.refl _) ?_) ?_
  · exact Le.eval (Le.bind (Le.refl _) (fun _ => pushI_le))
  · refine Le.bind (stepChoice_le p) (fun x => ?_)
    refine Le.eval (Le.bind (divRemAway_le _ _) (fun y => ?_))
    refine Le.eval (Le.bind (divRemAway_le _ _) (fun z => ?_))
    refine Le.eval (Le.eval (Le.sign (Le.sign (Le.eval (Le.bind (Le.refl _) (fun _ => Le.eval ?_))))))
    refine Le.bind (pushUp_le _ _ _ _ _ _) (fun _ => Le.bind (Le.refl _) (fun _ => ?_))
    exact Le.bind (pushFlat_le _ _ _ _ _) (fun _ => pushDown_le _ _ _ _ _ _)

theorem roundSpeed_le (v0 vn a : Int) : Le (roundSpeed v0 vn a) (IntegerCurve.roundSpeed v0 vn a) := by
  unfold roundSpeed IntegerCurve.roundSpeed
  refine Le.eval (Le.ite ?_ Le.div)
  intro w hw
  obtain ⟨q, h1, h2⟩ := Option.bind_eq_some_iff.1 hw
  rw [div_sound q h1, ck_sound h2]
  rfl

theorem minTime_le (v0 vn a : Int) : Le (minTime v0 vn a) (IntegerCurve.minTime v0 vn a) := by
  unfold minTime IntegerCurve.minTime
  exact Le.ite Le.div (Le.refl _)

theorem gapRange_eq (t : Int) (x y : Option Int) : gapRange t x y = IntegerCurve.gapRange t x y := by
  cases x <;> cases y <;> rfl

theorem maxAccelerationCurve_le (ds v0 vn a : Int) :
    Le (maxAccelerationCurve ds v0 vn a) (IntegerCurve.maxAccelerationCurve ds v0 vn a) := by
  unfold maxAccelerationCurve IntegerCurve.maxAccelerationCurve
  refine Le.bind (minTime_le _ _ _) (fun t => Le.eval (Le.eval (Le.eval (Le.eval ?_))))
  refine Le.ite (Le.refl _) ?_
  refine Le.bind (roundSpeed_le _ _ _) (fun x => Le.eval ?_)
  refine Le.ite (Le.refl _) ?_
  refine Le.bind (growLimit_le _ _ _ _ _) (fun l => Le.eval (Le.eval ?_))
  refine Le.step (findRoot_le _ _ _ _ _) (Le.eval ?_)
  refine Le.step (findRoot_le _ _ _ _ _) ?_
  rw [gapRange_eq]
  exact Le.refl _

theorem speedLimitedCurve_le (ds v0 vn a vmax : Int) :
    Le (speedLimitedCurve ds v0 vn a vmax) (IntegerCurve.speedLimitedCurve ds v0 vn a vmax) := by
  unfold speedLimitedCurve IntegerCurve.speedLimitedCurve
  refine Le.eval (Le.bind (Le.refl _) (fun _ => Le.ck (Le.ck (Le.eval (Le.ck (Le.ck (Le.eval ?_)))))))
  refine Le.ite ?_ (Le.refl _)
  exact Le.bind Le.div (fun q => Le.eval (Le.refl _))

theorem midFlat_le (tTotal ds vLow vHigh a : Int) :
    Le (midFlat tTotal ds vLow vHigh a) (IntegerCurve.midFlat tTotal ds vLow vHigh a) := by
  unfold midFlat IntegerCurve.midFlat
  refine Le.bind Le.div (fun tAcc => Le.eval (Le.eval ?_))
  refine Le.ite (Le.eval (Le.refl _)) (Le.eval (Le.eval (Le.ite (Le.refl _) ?_)))
  refine Le.bind (Le.refl _) (fun _ => Le.eval (Le.bind (Le.refl _) (fun _ => Le.bind Le.div (fun t => ?_))))
  refine Le.eval (Le.eval (Le.ite ?_ ?_))
  · exact Le.eval (Le.bind Le.div (fun q => Le.eval (Le.eval (Le.eval (Le.refl _)))))
  · exact Le.eval (Le.bind Le.div (fun q => Le.eval (Le.eval (Le.eval (Le.refl _)))))

theorem adjustCurveMid_le (tTotal ds v0 vn a : Int) :
    Le (adjustCurveMid tTotal ds v0 vn a) (IntegerCurve.adjustCurveMid tTotal ds v0 vn a) := by
  unfold adjustCurveMid IntegerCurve.adjustCurveMid
  exact Le.bind (midFlat_le _ _ _ _ _) (fun _ => Le.refl _)

theorem searchFlat_le (tTotal ds v0 vn a mn mx smin smax : Int) :
    Le (searchFlat tTotal ds v0 vn a mn mx smin smax) (IntegerCurve.searchFlat tTotal ds v0 vn a mn mx smin smax) := by
  intro w h
  refine searchFlat.partial_correctness tTotal ds v0 vn a
    (fun mn mx smin smax w => IntegerCurve.searchFlat tTotal ds v0 vn a mn mx smin smax = some w) ?_ mn mx smin smax w h
  clear h w mn mx smin smax
  intro rec ih mn mx smin smax w h
  rw [IntegerCurve.searchFlat]
  refine Le.eval (o := mx -? mn) ?_ w h
  refine Le.ite (Le.refl _) (Le.eval ?_)
  exact Le.bind (pathDistance_le _ _ _ _ _) (fun s => Le.ite (ih _ _ _ _) (ih _ _ _ _))

theorem pickFlat_le (ds v0 vn mn mx smin smax : Int) :
    Le (pickFlat ds v0 vn mn mx smin smax) (some (IntegerCurve.pickFlat ds v0 vn mn mx smin smax)) := by
  unfold pickFlat IntegerCurve.pickFlat
  split
  · exact Le.refl _
  · split
    · exact Le.refl _
    · split
      · exact Le.eval (Le.refl _)
      · exact Le.eval (Le.refl _)

theorem peakVel_le (v0 vn a tl th : Int) : Le (peakVel v0 vn a tl th) (some (IntegerCurve.peakVel v0 vn a tl th)) := by
  unfold peakVel IntegerCurve.peakVel
  split
  · exact Le.val
  · split
    · exact Le.val
    · exact Le.eval (Le.eval (Le.refl _))

theorem valleyVel_le (v0 vn a tl th : Int) :
    Le (valleyVel v0 vn a tl th) (some (IntegerCurve.valleyVel v0 vn a tl th)) := by
  unfold valleyVel IntegerCurve.valleyVel
  split
  · exact Le.val
  · split
    · exact Le.val
    · exact Le.eval (Le.eval (Le.refl _))

theorem adjustCurve_le (tTotal ds v0 vn a : Int) :
    Le (adjustCurve tTotal ds v0 vn a) (IntegerCurve.adjustCurve tTotal ds v0 vn a) := by
  unfold adjustCurve IntegerCurve.adjustCurve
  refine Le.ite (Le.eval (Le.eval (Le.bind (Le.refl _) (fun _ => Le.refl _)))) ?_
  refine Le.bind (adjustCurveMid_le _ _ _ _ _) (fun r => ?_)
  cases r with
  | some p => exact Le.refl _
  | none =>
    dsimp only
    refine Le.bind Le.div (fun tl => Le.bind Le.div (fun th => Le.eval (Le.bind (Le.refl _) (fun _ => Le.eval ?_))))
    refine Le.bind (Le.refl _) (fun _ => ?_)
    refine Le.step (peakVel_le _ _ _ _ _) ?_
    refine Le.step (valleyVel_le _ _ _ _ _) ?_
    refine Le.bind (Le.refl _) (fun _ => ?_)
    refine Le.bind (pathDistance_le _ _ _ _ _) (fun smax => Le.bind (pathDistance_le _ _ _ _ _) (fun smin => ?_))
    refine Le.bind (Le.refl _) (fun _ => Le.bind (Le.refl _) (fun _ => ?_))
    refine Le.bind (searchFlat_le _ _ _ _ _ _ _ _ _) (fun x => ?_)
    exact Le.step (pickFlat_le _ _ _ _ _ _ _) (Le.refl _)

theorem sideLengths_le (ds v0 vn a vmax : Int) :
    Le (sideLengths ds v0 vn a vmax) (IntegerCurve.sideLengths ds v0 vn a vmax) := by
  unfold sideLengths IntegerCurve.sideLengths
  exact Le.bind (speedLimitedCurve_le _ _ _ _ _) (fun r => Le.ite (maxAccelerationCurve_le _ _ _ _) (Le.refl _))

theorem shortestCurveLength_le (ds v0 vn a vmax : Int) :
    Le (shortestCurveLength ds v0 vn a vmax) (IntegerCurve.shortestCurveLength ds v0 vn a vmax) := by
  unfold shortestCurveLength IntegerCurve.shortestCurveLength
  refine Le.bind (sideLengths_le _ _ _ _ _) (fun _ => Le.eval (Le.eval (Le.eval ?_)))
  exact Le.bind (sideLengths_le _ _ _ _ _) (fun _ => Le.refl _)

theorem shortestCurve_le (ds v0 vn a vmax : Int) :
    Le (shortestCurve ds v0 vn a vmax) (IntegerCurve.shortestCurve ds v0 vn a vmax) := by
  unfold shortestCurve IntegerCurve.shortestCurve
  exact Le.bind (shortestCurveLength_le _ _ _ _ _) (fun _ => Le.bind (Le.refl _) (fun _ => adjustCurve_le _ _ _ _ _))

theorem commonLengths_le (ls : List PathLimits) : ∀ r, Le (commonLengths r ls) (IntegerCurve.commonLengths r ls) := by
  induction ls with
  | nil => exact fun r => Le.refl _
  | cons l ls ih => exact fun r => Le.bind (shortestCurveLength_le _ _ _ _ _) (fun _ => ih _)

theorem mapM_le {α β : Type} {f g : α → Option β} (h : ∀ x, Le (f x) (g x)) (l : List α) :
    Le (l.mapM f) (l.mapM g) := by
  induction l with
  | nil => exact Le.refl _
  | cons x l ih =>
    rw [List.mapM_cons, List.mapM_cons]
    exact Le.bind (h x) (fun _ => Le.bind ih (fun _ => Le.refl _))

theorem shortestCurveSequences_le (ls : List PathLimits) :
    Le (shortestCurveSequences ls) (IntegerCurve.shortestCurveSequences ls) := by
  unfold shortestCurveSequences IntegerCurve.shortestCurveSequences
  refine Le.bind (Le.refl _) (fun _ => Le.bind (commonLengths_le _ _) (fun _ => Le.bind (Le.refl _) (fun _ => ?_)))
  exact mapM_le (fun l => Le.bind (adjustCurve_le _ _ _ _ _) (fun p => accSeq_le p)) ls

end StepperPaths.Checked
