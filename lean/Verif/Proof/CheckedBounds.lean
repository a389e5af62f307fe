import Verif.Proof.Checked

/-! No overflow under bounds on the arguments: the checked functions return what the unbounded ones
return. -/

namespace StepperPaths.Checked
open Solve IntegerCurve

theorem Ge.bind {α β : Type} {o p : Option α} {f g : α → Option β} (h : Le p o)
    (k : ∀ x, p = some x → Le (g x) (f x)) : Le (p >>= g) (o >>= f) := by
  intro w hw
  obtain ⟨x, h1, h2⟩ := Option.bind_eq_some_iff.1 hw
  exact Option.bind_eq_some_iff.2 ⟨x, h x h1, k x h1 w h2⟩

theorem Ge.eval {α : Type} {o : Option Int} {v : Int} {m : ℕ} [h : Ev o v m] {f : Int → Option α} {p : Option α}
    (hm : m < 2 ^ 63) (k : Le p (f v)) : Le p (o >>= f) := by
  rw [bind_eval f hm]
  exact k

theorem Ge.val {o : Option Int} {v : Int} {m : ℕ} [h : Ev o v m] (hm : m < 2 ^ 63) : Le (some v) o := by
  rw [h.ok hm]
  exact Le.refl _

theorem Ge.div {x y : Option Int} {v w : Int} {m n : ℕ} [Ev x v m] [Ev y w n]
    (hm : m < 2 ^ 63) (hn : n < 2 ^ 63) : Le (cdiv v w) (x /? y) := by
  rw [div_eq hm hn]
  exact Le.refl _

theorem Ge.rem {x y : Option Int} {v w : Int} {m n : ℕ} [Ev x v m] [Ev y w n]
    (hm : m < 2 ^ 63) (hn : n < 2 ^ 63) : Le (crem v w) (x %? y) := by
  rw [rem_eq hm hn]
  exact Le.refl _

theorem Ge.step {α β : Type} {o : Option α} {v : α} {f : α → Option β} {p : Option β} (h : o = some v)
    (k : Le p (f v)) : Le p (o >>= f) := by
  rw [h]
  exact k

theorem Ge.ite {α : Type} {c : Prop} [Decidable c] {a b a' b' : Option α} (h : c → Le a a') (k : ¬c → Le b b') :
    Le (if c then a else b) (if c then a' else b') := by
  split
  · exact h ‹_›
  · exact k ‹_›

/-- A product whose value has a better bound than the product of the bounds. -/
theorem Ev.tight {o : Option Int} {v : Int} {m n : ℕ} (h : Ev o v m) (hm : m < 2 ^ 63) (hv : |v| ≤ n) : Ev o v n :=
  ⟨fun _ => h.ok hm, hv, h.sound⟩

theorem Ev.prod {x y : Option Int} {v w : Int} {m n r : ℕ} [h : Ev x v m] [k : Ev y w n] (hm : m < 2 ^ 63)
    (hn : n < 2 ^ 63) (hr : r < 2 ^ 63) (hv : |v * w| ≤ r) : Ev (x *? y) (v * w) r := by
  refine ⟨fun _ => ?_, hv, (Ev.mul (h := h) (k := k)).sound⟩
  unfold Checked.mul
  rw [h.ok hm, k.ok hn]
  exact ck_eq (lt_of_le_of_lt hv (by exact_mod_cast hr))

/-- Limits small enough for `i64`. -/
structure Small (a v0 vn : Int) : Prop where
  a1 : 1 ≤ a
  a2 : a ≤ 2 ^ 15
  h0 : |v0| ≤ 2 ^ 27
  hn : |vn| ≤ 2 ^ 27

theorem Small.neg {a v0 vn : Int} (h : Small a v0 vn) : Small a (-v0) (-vn) :=
  ⟨h.a1, h.a2, by rw [abs_neg]; exact h.h0, by rw [abs_neg]; exact h.hn⟩

theorem Small.mag {a v0 vn : Int} (h : Small a v0 vn) : Mag a (2 ^ 15) := ⟨by
  rw [abs_of_nonneg (by have := h.a1; omega)]; exact_mod_cast h.a2⟩

theorem Small.mag0 {a v0 vn : Int} (h : Small a v0 vn) : Mag v0 (2 ^ 27) := ⟨by exact_mod_cast h.h0⟩
theorem Small.magn {a v0 vn : Int} (h : Small a v0 vn) : Mag vn (2 ^ 27) := ⟨by exact_mod_cast h.hn⟩

/-! ### solve.rs -/

/-- The polynomial of `max_acceleration_curve` on the interval that is searched. -/
theorem sqpoly_ok {a u c x : Int} (a1 : 1 ≤ a) (a2 : a ≤ 2 ^ 15) (hu : |u| ≤ 2 ^ 28) (hc : |c| ≤ 2 ^ 58)
    (hx : |a * x| ≤ 2 ^ 31) :
    sqpoly (a * a) (2 * a * u) c x = some (Solve.sqpoly (a * a) (2 * a * u) c x) := by
  have ha : |a| = a := abs_of_nonneg (by omega)
  have hxx : |x| ≤ 2 ^ 31 := by
    rw [abs_mul, ha] at hx
    nlinarith [abs_nonneg x]
  have m1 : |a * a * x| ≤ 2 ^ 46 := by
    rw [mul_assoc, abs_mul, ha]
    nlinarith [abs_nonneg (a * x)]
  have m2 : |a * a * x * x| ≤ 2 ^ 62 := by
    have e : a * a * x * x = (a * x) * (a * x) := by ring
    rw [e, abs_mul]
    nlinarith [abs_nonneg (a * x)]
  have m3 : |2 * a * u * x| ≤ 2 ^ 60 := by
    have e : 2 * a * u * x = 2 * u * (a * x) := by ring
    rw [e, abs_mul, abs_mul]
    have : |(2 : Int)| = 2 := rfl
    rw [this]
    have := mul_le_mul hu hx (abs_nonneg _) (by norm_num)
    linarith
  have m4 : |a * a| ≤ 2 ^ 30 := by
    rw [abs_mul, ha]
    nlinarith
  have m5 : |2 * a * u| ≤ 2 ^ 44 := by
    rw [abs_mul, abs_mul, ha]
    have : |(2 : Int)| = 2 := rfl
    rw [this]
    nlinarith [abs_nonneg u]
  unfold sqpoly
  have e1 : (some (a * a) : Option Int) *? (some x) = some (a * a * x) := by
    exact ck_eq (lt_of_le_of_lt m1 (by norm_num))
  have e2 : (some (a * a * x) : Option Int) *? (some x) = some (a * a * x * x) := by
    exact ck_eq (lt_of_le_of_lt m2 (by norm_num))
  have e3 : (some (2 * a * u) : Option Int) *? (some x) = some (2 * a * u * x) := by
    exact ck_eq (lt_of_le_of_lt m3 (by norm_num))
  rw [e1, e2, e3]
  have _ : Mag (a * a * x * x) (2 ^ 62) := ⟨by exact_mod_cast m2⟩
  have _ : Mag (2 * a * u * x) (2 ^ 60) := ⟨by exact_mod_cast m3⟩
  have _ : Mag c (2 ^ 58) := ⟨by exact_mod_cast hc⟩
  exact eval (by norm_num)

theorem tdiv_mid {x y : Int} (h : x + 1 < y) : x < Int.tdiv (x + y) 2 ∧ Int.tdiv (x + y) 2 < y := by
  rcases Int.le_total 0 (x + y) with hs | hs
  · rw [Int.tdiv_eq_ediv_of_nonneg hs]; omega
  · have : (x + y).tdiv 2 = -((-(x + y)) / 2) := by
      rw [← Int.tdiv_eq_ediv_of_nonneg (by omega), Int.neg_tdiv]; omega
    omega

theorem abs_mul_between {a x y z : Int} {B : Int} (a1 : 1 ≤ a) (h1 : |a * x| ≤ B) (h2 : |a * y| ≤ B) (h3 : x ≤ z)
    (h4 : z ≤ y) : |a * z| ≤ B := by
  rw [abs_le] at h1 h2 ⊢
  have := mul_le_mul_of_nonneg_left h3 (show 0 ≤ a by omega)
  have := mul_le_mul_of_nonneg_left h4 (show 0 ≤ a by omega)
  constructor <;> linarith

theorem abs_le_of_mul {a x B : Int} (a1 : 1 ≤ a) (h : |a * x| ≤ B) : |x| ≤ B := by
  rw [abs_mul, abs_of_nonneg (show 0 ≤ a by omega)] at h
  nlinarith [abs_nonneg x]

theorem findRootLoop_ok {a u c : Int} (a1 : 1 ≤ a) (a2 : a ≤ 2 ^ 15) (hu : |u| ≤ 2 ^ 28) (hc : |c| ≤ 2 ^ 58)
    (minx maxx miny maxy : Int) (h1 : |a * minx| ≤ 2 ^ 31) (h2 : |a * maxx| ≤ 2 ^ 31) :
    findRootLoop (a * a) (2 * a * u) c minx maxx miny maxy
      = some (Solve.findRootLoop (a * a) (2 * a * u) c minx maxx miny maxy) := by
  generalize hn : (maxx - minx).toNat = n
  induction n using Nat.strong_induction_on generalizing minx maxx miny maxy with
  | _ n ih =>
    rw [findRootLoop, Solve.findRootLoop]
    split
    · rfl
    split
    · rfl
    have _ : Mag minx (2 ^ 31) := ⟨by exact_mod_cast abs_le_of_mul a1 h1⟩
    have _ : Mag maxx (2 ^ 31) := ⟨by exact_mod_cast abs_le_of_mul a1 h2⟩
    rw [bind_eval _ (by norm_num)]
    split
    · split <;> rfl
    rename_i hd
    obtain ⟨m1, m2⟩ := tdiv_mid (x := minx) (y := maxx) (by omega)
    rw [bind_eval _ (by norm_num)]
    rw [sqpoly_ok a1 a2 hu hc (abs_mul_between a1 h1 h2 m1.le m2.le)]
    show (if _ then _ else _) = _
    dsimp only
    split
    · exact ih _ (by omega) _ _ _ _ h1 (abs_mul_between a1 h1 h2 m1.le m2.le) rfl
    · exact ih _ (by omega) _ _ _ _ (abs_mul_between a1 h1 h2 m1.le m2.le) h2 rfl

theorem findRoot_ok {a u c : Int} (a1 : 1 ≤ a) (a2 : a ≤ 2 ^ 15) (hu : |u| ≤ 2 ^ 28) (hc : |c| ≤ 2 ^ 58)
    (min max : Int) (h1 : |a * min| ≤ 2 ^ 31) (h2 : |a * max| ≤ 2 ^ 31) :
    findRoot (a * a) (2 * a * u) c min max = some (Solve.findRoot (a * a) (2 * a * u) c min max) := by
  unfold findRoot Solve.findRoot
  rw [sqpoly_ok a1 a2 hu hc h1, sqpoly_ok a1 a2 hu hc h2]
  dsimp only [bind, Option.bind]
  rw [findRootLoop_ok a1 a2 hu hc _ _ _ _ h1 h2]
  split
  · rfl
  split
  · rfl
  split <;> rfl

theorem growLimit_ok {a u c xmin : Int} (a1 : 1 ≤ a) (a2 : a ≤ 2 ^ 15) (hu : |u| ≤ 2 ^ 28) (hc : |c| ≤ 2 ^ 57 + 2 ^ 31)
    (hx : |a * xmin + u| ≤ a) (limit : Int) (hl : 1 ≤ limit) (hl2 : a * limit ≤ 2 ^ 30 + 2 ^ 17) (w : Int)
    (hw : Solve.growLimit (a * a) (2 * a * u) c xmin limit = some w) :
    growLimit (a * a) (2 * a * u) c xmin limit = some w ∧ 1 ≤ w ∧ a * w ≤ 2 ^ 30 + 2 ^ 17 := by
  have hu' := abs_le.1 hu
  have hx' := abs_le.1 hx
  have hc' := abs_le.1 hc
  refine Solve.growLimit.partial_correctness (a * a) (2 * a * u) c xmin
    (fun limit w => 1 ≤ limit → a * limit ≤ 2 ^ 30 + 2 ^ 17 →
      growLimit (a * a) (2 * a * u) c xmin limit = some w ∧ 1 ≤ w ∧ a * w ≤ 2 ^ 30 + 2 ^ 17) ?_ limit w hw hl hl2
  clear hw hl hl2 w limit
  intro rec ih limit w h hl hl2
  have hal : 1 ≤ a * limit := by nlinarith
  have hxl : |a * (xmin + limit)| ≤ 2 ^ 31 := by
    rw [abs_le, mul_add]
    constructor <;> omega
  have _ : Mag (xmin + limit) (2 ^ 31) := ⟨by exact_mod_cast abs_le_of_mul a1 hxl⟩
  have hxm : |a * xmin| ≤ 2 ^ 29 := by rw [abs_le]; constructor <;> omega
  have hll : |a * limit| ≤ 2 ^ 31 := by rw [abs_le]; constructor <;> omega
  have _ : Mag xmin (2 ^ 29) := ⟨by exact_mod_cast abs_le_of_mul a1 hxm⟩
  have _ : Mag limit (2 ^ 31) := ⟨by exact_mod_cast abs_le_of_mul a1 hll⟩
  rw [growLimit, bind_eval _ (by norm_num), sqpoly_ok a1 a2 hu (hc.trans (by norm_num)) hxl]
  show (if _ then _ else _) = some w ∧ _
  split at h
  · rename_i hle
    rw [if_pos hle, bind_eval _ (by norm_num)]
    refine ih _ w h (by omega) ?_
    have e : Solve.sqpoly (a * a) (2 * a * u) c (xmin + limit) =
        (a * limit + (a * xmin + u)) * (a * limit + (a * xmin + u)) - (u * u + c) := by
      unfold Solve.sqpoly; ring
    rw [e] at hle
    have : a * limit + (a * xmin + u) ≤ 2 ^ 29 := by
      by_contra hcon
      push Not at hcon
      nlinarith
    have e2 : a * (limit * 2) = 2 * (a * limit) := by ring
    rw [e2]
    omega
  · rename_i hle
    rw [if_neg hle]
    obtain rfl := Option.some.inj h
    exact ⟨rfl, hl, hl2⟩

/-! ### The time ranges -/

theorem minTime_ge {a v0 vn : Int} (h : Small a v0 vn) : Le (IntegerCurve.minTime v0 vn a) (minTime v0 vn a) := by
  have _ := h.mag
  have _ := h.mag0
  have _ := h.magn
  unfold minTime IntegerCurve.minTime
  exact Ge.ite (fun _ => Ge.div (by norm_num) (by norm_num)) (fun _ => Le.refl _)

theorem roundSpeed_ge {a v0 vn : Int} (h : Small a v0 vn) : Le (IntegerCurve.roundSpeed v0 vn a) (roundSpeed v0 vn a) := by
  have _ := h.mag
  have _ := h.mag0
  have _ := h.magn
  have _ : NZ a := ⟨by have := h.a1; omega⟩
  unfold roundSpeed IntegerCurve.roundSpeed
  refine Ge.eval (by norm_num) (Ge.ite (fun _ => ?_) (fun _ => Ge.div (by norm_num) (by norm_num)))
  unfold cdiv
  rw [if_neg (NZ.ne (v := 2 * a))]
  exact Ge.val (by norm_num)

theorem maxAccelerationCurve_ge {a v0 vn ds : Int} (h : Small a v0 vn) (hds : |ds| ≤ 2 ^ 40) :
    Le (IntegerCurve.maxAccelerationCurve ds v0 vn a) (maxAccelerationCurve ds v0 vn a) := by
  have _ := h.mag
  have _ := h.mag0
  have _ := h.magn
  have _ : Mag ds (2 ^ 40) := ⟨by exact_mod_cast hds⟩
  have a1 := h.a1
  have a2 := h.a2
  have hu : |v0 + vn| ≤ 2 ^ 28 := (Mag.le (v := v0 + vn)).trans (by norm_num)
  have hc : |(v0 - vn) * (v0 - vn) + a * (a + 2 * ds)| ≤ 2 ^ 57 + 2 ^ 31 := by
    refine (Mag.le (v := (v0 - vn) * (v0 - vn) + a * (a + 2 * ds))).trans ?_
    norm_num
  unfold maxAccelerationCurve IntegerCurve.maxAccelerationCurve
  refine Ge.bind (minTime_ge h) (fun tmin _ => ?_)
  refine Ge.eval (by norm_num) (Ge.eval (by norm_num) (Ge.eval (by norm_num) (Ge.eval (by norm_num) ?_)))
  dsimp only
  refine Ge.ite (fun _ => Le.refl _) (fun _ => ?_)
  refine Ge.bind (roundSpeed_ge h) (fun xmin hxmin => ?_)
  have hx : |a * xmin + (v0 + vn)| ≤ a := by
    obtain ⟨x, h1, h2⟩ := roundSpeed_spec (v0 := v0) (vn := vn) (a := a) (by omega)
    rw [hxmin] at h1
    obtain rfl := Option.some.inj h1
    have e : 2 * (a * a) * xmin + 2 * a * (v0 + vn) = 2 * a * (a * xmin + (v0 + vn)) := by ring
    rw [e, abs_mul, abs_of_nonneg (show 0 ≤ 2 * a by omega)] at h2
    nlinarith [abs_nonneg (a * xmin + (v0 + vn))]
  have hx' := abs_le.1 hx
  have hu' := abs_le.1 hu
  have hxm : |a * xmin| ≤ 2 ^ 29 := by rw [abs_le]; constructor <;> omega
  have _ : Mag xmin (2 ^ 29) := ⟨by exact_mod_cast abs_le_of_mul a1 hxm⟩
  refine Ge.step (sqpoly_ok a1 a2 hu (hc.trans (by norm_num)) (hxm.trans (by norm_num))) ?_
  refine Ge.ite (fun _ => Le.refl _) (fun _ => ?_)
  refine Ge.bind (fun w hw => (growLimit_ok a1 a2 hu hc hx 16 (by norm_num) (by omega) w hw).1) (fun limit hl => ?_)
  obtain ⟨-, l1, l2⟩ := growLimit_ok a1 a2 hu hc hx 16 (by norm_num) (by omega) limit hl
  have hll : |a * limit| ≤ 2 ^ 31 := by
    rw [abs_le]
    constructor <;> nlinarith
  have _ : Mag limit (2 ^ 31) := ⟨by exact_mod_cast abs_le_of_mul a1 hll⟩
  refine Ge.eval (by norm_num) (Ge.eval (by norm_num) ?_)
  have hal : 1 ≤ a * limit := by nlinarith
  have e1 : a * (xmin - (limit + 1)) = a * xmin - a * limit - a := by ring
  have e2 : a * (xmin + (limit + 1)) = a * xmin + a * limit + a := by ring
  have b1 : |a * (xmin - (limit + 1))| ≤ 2 ^ 31 := by
    rw [e1, abs_le]
    constructor <;> omega
  have b2 : |a * (xmin + (limit + 1))| ≤ 2 ^ 31 := by
    rw [e2, abs_le]
    constructor <;> omega
  refine Ge.step (findRoot_ok a1 a2 hu (hc.trans (by norm_num)) _ _ b1 (hxm.trans (by norm_num))) ?_
  refine Ge.eval (by norm_num) ?_
  refine Ge.step (findRoot_ok a1 a2 hu (hc.trans (by norm_num)) _ _ (hxm.trans (by norm_num)) b2) ?_
  rw [gapRange_eq]
  exact Le.refl _

theorem fdiv_bounds {n a : Int} (a1 : 1 ≤ a) (hn : 0 ≤ n) : |Int.fdiv n a * a| ≤ n ∧ |Int.fdiv n a| ≤ n ∧
    |Int.fmod n a| ≤ n := by
  rw [Int.fdiv_eq_ediv_of_nonneg _ (by omega), Int.fmod_eq_emod_of_nonneg _ (by omega)]
  have h1 := Int.ediv_nonneg hn (show 0 ≤ a by omega)
  have h2 := Int.emod_nonneg n (show a ≠ 0 by omega)
  have h3 := Int.mul_ediv_add_emod n a
  have h4 : 0 ≤ n / a * a := by nlinarith
  refine ⟨?_, ?_, ?_⟩
  · rw [abs_of_nonneg h4]; linarith [mul_comm a (n / a)]
  · rw [abs_of_nonneg h1]; nlinarith
  · rw [abs_of_nonneg h2]; linarith [mul_comm a (n / a)]

theorem speedLimitedCurve_ge {a v0 vn ds vmax : Int} (h : Small a v0 vn) (hds : |ds| ≤ 2 ^ 40) (h0 : v0 ≤ vmax)
    (hn : vn ≤ vmax) (hv : vmax ≤ 2 ^ 27) :
    Le (IntegerCurve.speedLimitedCurve ds v0 vn a vmax) (speedLimitedCurve ds v0 vn a vmax) := by
  have _ := h.mag
  have _ := h.mag0
  have _ := h.magn
  have _ : Mag ds (2 ^ 40) := ⟨by exact_mod_cast hds⟩
  have a1 := h.a1
  have a2 := h.a2
  have k0 := abs_le.1 h.h0
  have kn := abs_le.1 h.hn
  have _ : Mag vmax (2 ^ 27) := ⟨by rw [abs_le]; push_cast; omega⟩
  have hf : ∀ v, |v| ≤ 2 ^ 27 → v ≤ vmax → ∀ n, n = vmax - v + a - 1 →
      |Int.fdiv n a * a| ≤ 2 ^ 29 ∧ |Int.fdiv n a| ≤ 2 ^ 29 ∧ |Int.fmod n a| ≤ 2 ^ 29 := by
    intro v hv1 hv2 n hn
    have := abs_le.1 hv1
    obtain ⟨q1, q2, q3⟩ := fdiv_bounds (n := n) a1 (by omega)
    exact ⟨by omega, by omega, by omega⟩
  unfold speedLimitedCurve IntegerCurve.speedLimitedCurve
  refine Ge.eval (by norm_num) (Ge.bind (Le.refl _) (fun _ _ => ?_))
  obtain ⟨p1, p2, p3⟩ := hf v0 h.h0 h0 _ rfl
  obtain ⟨q1, q2, q3⟩ := hf vn h.hn hn _ rfl
  refine Ge.step (ck_eq (lt_of_le_of_lt p2 (by norm_num))) (Ge.step (ck_eq (lt_of_le_of_lt p3 (by norm_num))) ?_)
  refine Ge.eval (by norm_num) ?_
  refine Ge.step (ck_eq (lt_of_le_of_lt q2 (by norm_num))) (Ge.step (ck_eq (lt_of_le_of_lt q3 (by norm_num))) ?_)
  dsimp only
  generalize Int.fdiv (vmax - v0 + a - 1) a = t1 at *
  generalize Int.fmod (vmax - v0 + a - 1) a = d1 at *
  generalize Int.fdiv (vmax - vn + a - 1) a = t4 at *
  generalize Int.fmod (vmax - vn + a - 1) a = d4 at *
  have _ : Mag t1 (2 ^ 29) := ⟨by exact_mod_cast p2⟩
  have _ : Mag d1 (2 ^ 29) := ⟨by exact_mod_cast p3⟩
  have _ : Mag t4 (2 ^ 29) := ⟨by exact_mod_cast q2⟩
  have _ : Mag d4 (2 ^ 29) := ⟨by exact_mod_cast q3⟩
  have _ : Ev ((t1 : Option Int) *? (a : Option Int)) (t1 * a) (2 ^ 29) :=
    Ev.tight inferInstance (by norm_num) (by exact_mod_cast p1)
  have _ : Ev ((t4 : Option Int) *? (a : Option Int)) (t4 * a) (2 ^ 29) :=
    Ev.tight inferInstance (by norm_num) (by exact_mod_cast q1)
  have _ : Mag (t1 * a) (2 ^ 29) := ⟨by exact_mod_cast p1⟩
  have _ : Mag (t4 * a) (2 ^ 29) := ⟨by exact_mod_cast q1⟩
  refine Ge.eval (by norm_num) (Ge.ite (fun _ => ?_) (fun _ => Le.refl _))
  refine Ge.bind (Ge.div (by norm_num) (by norm_num)) (fun q hq => ?_)
  have hq' : |q| ≤ 2 ^ 61 := by
    unfold cdiv at hq
    split at hq
    · simp at hq
    · obtain rfl := Option.some.inj hq
      refine (Mag.le).trans ?_
      norm_num
  have _ : Mag q (2 ^ 61) := ⟨by exact_mod_cast hq'⟩
  refine Ge.eval (by norm_num) (Le.refl _)

theorem sideLengths_ge {a v0 vn ds vmax : Int} (h : Small a v0 vn) (hds : |ds| ≤ 2 ^ 40) (h0 : v0 ≤ vmax)
    (hn : vn ≤ vmax) (hv : vmax ≤ 2 ^ 27) :
    Le (IntegerCurve.sideLengths ds v0 vn a vmax) (sideLengths ds v0 vn a vmax) := by
  unfold sideLengths IntegerCurve.sideLengths
  exact Ge.bind (speedLimitedCurve_ge h hds h0 hn hv) (fun r _ =>
    Ge.ite (fun _ => maxAccelerationCurve_ge h hds) (fun _ => Le.refl _))

theorem shortestCurveLength_ge {a v0 vn ds vmax : Int} (h : Small a v0 vn) (hds : |ds| ≤ 2 ^ 40) (h0 : |v0| ≤ vmax)
    (hn : |vn| ≤ vmax) (hv : vmax ≤ 2 ^ 27) :
    Le (IntegerCurve.shortestCurveLength ds v0 vn a vmax) (shortestCurveLength ds v0 vn a vmax) := by
  have _ := h.mag0
  have _ := h.magn
  have _ : Mag ds (2 ^ 40) := ⟨by exact_mod_cast hds⟩
  rw [abs_le] at h0 hn
  unfold shortestCurveLength IntegerCurve.shortestCurveLength
  refine Ge.bind (sideLengths_ge h hds h0.2 hn.2 hv) (fun _ _ => ?_)
  refine Ge.eval (by norm_num) (Ge.eval (by norm_num) (Ge.eval (by norm_num) ?_))
  exact Ge.bind (sideLengths_ge h.neg (by rw [abs_neg]; exact hds) (by omega) (by omega) hv) (fun _ _ => Le.refl _)

/-! ### The curve -/

theorem divRemAway_ge {a d : Int} (a1 : 1 ≤ a) (a2 : a ≤ 2 ^ 15) (hd : |d| ≤ 2 ^ 61) :
    Le (IntegerCurve.divRemAway d a) (divRemAway d a) := by
  have _ : Mag a (2 ^ 15) := ⟨by rw [abs_of_nonneg (by omega)]; exact_mod_cast a2⟩
  have _ : Mag d (2 ^ 61) := ⟨by exact_mod_cast hd⟩
  have _ : NZ a := ⟨by omega⟩
  have hr : |Int.tmod d a| ≤ 2 ^ 15 := by
    rw [Int.abs_eq_natAbs, Int.natAbs_tmod]
    have := Nat.mod_lt d.natAbs (show 0 < a.natAbs by omega)
    omega
  have _ : Mag (Int.tmod d a) (2 ^ 15) := ⟨by exact_mod_cast hr⟩
  unfold divRemAway IntegerCurve.divRemAway
  refine Ge.bind (Le.refl _) (fun _ _ => Ge.eval (by norm_num) ?_)
  have e : (d : Option Int) %? (a : Option Int) = some (Int.tmod d a) := by
    rw [rem_eq (v := d) (w := a) (m := 2 ^ 61) (n := 2 ^ 15) (by norm_num) (by norm_num)]
    unfold crem
    rw [if_neg (by omega)]
  refine Ge.step e ?_
  dsimp only
  refine Ge.ite (fun _ => Le.refl _) (fun _ => Ge.ite (fun _ => ?_) (fun _ => ?_))
  · exact Ge.eval (by norm_num) (Ge.eval (by norm_num) (Le.refl _))
  · exact Ge.eval (by norm_num) (Ge.eval (by norm_num) (Le.refl _))

theorem divRemAway_bounds {a d : Int} {x : Int × Int} (a1 : 1 ≤ a) (h : IntegerCurve.divRemAway d a = some x) :
    a * |x.1| ≤ |d| + a ∧ |d| ≤ a * |x.1| ∧ |x.2| ≤ a := by
  obtain ⟨q, r, h1, h2, h3⟩ := divRemAway_abs (a := a) (by omega) d
  rw [h] at h1
  obtain rfl := Option.some.inj h1
  have := rt_bounds (a := a) (by omega) d
  dsimp only
  rw [h2]
  refine ⟨by omega, by omega, ?_⟩
  rw [h3]
  split
  · rw [abs_of_nonneg ‹_›] at this
    rw [abs_le]; constructor <;> omega
  · rw [abs_of_neg (by omega)] at this
    rw [abs_le]; constructor <;> omega

theorem mul_le_cancel {a x N : Int} (a1 : 1 ≤ a) (h : a * x ≤ a * N) : x ≤ N := le_of_mul_le_mul_left h (by omega)

/-- A speed that a ramp can reach. -/
structure Near (a v0 vn x : Int) : Prop where
  near0 : |x - v0| ≤ a * 2 ^ 20
  nearn : |x - vn| ≤ a * 2 ^ 20

theorem Near.mag {a v0 vn x : Int} (h : Small a v0 vn) (hx : Near a v0 vn x) : |x| ≤ 2 ^ 36 := by
  have h1 := abs_le.1 h.h0
  have h2 := abs_le.1 hx.near0
  have := h.a2
  rw [abs_le]
  constructor <;> omega

theorem Near.between {a v0 vn x y z : Int} (hx : Near a v0 vn x) (hy : Near a v0 vn y) (h1 : x ≤ z) (h2 : z ≤ y) :
    Near a v0 vn z := by
  have p1 := abs_le.1 hx.near0
  have p2 := abs_le.1 hx.nearn
  have p3 := abs_le.1 hy.near0
  have p4 := abs_le.1 hy.nearn
  constructor <;> rw [abs_le] <;> constructor <;> omega

theorem near_div {a x v : Int} {y : Int × Int} (a1 : 1 ≤ a) (a2 : a ≤ 2 ^ 15) (hx : |x - v| ≤ a * 2 ^ 20)
    (hy : IntegerCurve.divRemAway (x - v) a = some y) : Mag y.1 (2 ^ 20 + 1) ∧ Mag y.2 (2 ^ 15) := by
  obtain ⟨y1, -, y3⟩ := divRemAway_bounds a1 hy
  have hy1 : |y.1| ≤ 2 ^ 20 + 1 := mul_le_cancel a1 (by linarith)
  exact ⟨⟨by exact_mod_cast hy1⟩, ⟨by push_cast; omega⟩⟩

theorem pathDistance_ge {a v0 vn x T : Int} (h : Small a v0 vn) (hx : Near a v0 vn x) (hT : |T| ≤ 2 ^ 18) :
    Le (IntegerCurve.pathDistance v0 vn x a T) (pathDistance v0 vn x a T) := by
  have a1 := h.a1
  have a2 := h.a2
  have _ := h.mag
  have _ := h.mag0
  have _ := h.magn
  have _ : Mag T (2 ^ 18) := ⟨by exact_mod_cast hT⟩
  have _ : Mag x (2 ^ 36) := ⟨by exact_mod_cast hx.mag h⟩
  have n0 := hx.near0
  have nn := hx.nearn
  unfold pathDistance IntegerCurve.pathDistance
  refine Ge.eval (by norm_num) (Ge.bind (divRemAway_ge a1 a2 (n0.trans (by omega))) (fun y hy => ?_))
  refine Ge.eval (by norm_num) (Ge.bind (divRemAway_ge a1 a2 (nn.trans (by omega))) (fun z hz => ?_))
  obtain ⟨_, _⟩ := near_div a1 a2 n0 hy
  obtain ⟨_, _⟩ := near_div a1 a2 nn hz
  exact Ge.eval (by norm_num) (Ge.eval (by norm_num) (Ge.val (by norm_num)))

theorem pathDistance_mag {a v0 vn x T s : Int} (h : Small a v0 vn) (hx : Near a v0 vn x) (hT : |T| ≤ 2 ^ 18)
    (hs : IntegerCurve.pathDistance v0 vn x a T = some s) : |s| ≤ 2 ^ 61 := by
  have a1 := h.a1
  have a2 := h.a2
  have _ := h.mag
  have _ := h.mag0
  have _ := h.magn
  have _ : Mag T (2 ^ 18) := ⟨by exact_mod_cast hT⟩
  have _ : Mag x (2 ^ 36) := ⟨by exact_mod_cast hx.mag h⟩
  unfold IntegerCurve.pathDistance at hs
  obtain ⟨y, hy, hs⟩ := Option.bind_eq_some_iff.1 hs
  obtain ⟨z, hz, hs⟩ := Option.bind_eq_some_iff.1 hs
  obtain ⟨_, _⟩ := near_div a1 a2 hx.near0 hy
  obtain ⟨_, _⟩ := near_div a1 a2 hx.nearn hz
  obtain rfl := Option.some.inj hs
  refine (Mag.le).trans ?_
  norm_num

theorem cdiv_some {x y q : Int} (h : cdiv x y = some q) : y ≠ 0 ∧ q = Int.tdiv x y := by
  unfold cdiv at h
  split at h
  · simp at h
  · exact ⟨‹_›, (Option.some.inj h).symm⟩

theorem cassert_some {p : Prop} [Decidable p] {x : Unit} (h : cassert p = some x) : p := by
  unfold cassert at h
  split at h
  · assumption
  · simp at h

/-- The product of a quotient with its divisor. -/
theorem tdiv_mul_abs (x y : Int) : |Int.tdiv x y * y| ≤ |x| := by
  rw [abs_mul, Int.abs_eq_natAbs, Int.abs_eq_natAbs, Int.abs_eq_natAbs, Int.natAbs_tdiv]
  exact_mod_cast Nat.div_mul_le_self _ _

theorem midFlat_ge {a lo hi ds T : Int} (h : Small a lo hi) (hds : |ds| ≤ 2 ^ 40) (hT0 : 0 ≤ T) (hT : T ≤ 2 ^ 18)
    (hle : lo ≤ hi) (hgap : hi - lo ≤ a * T) :
    Le (IntegerCurve.midFlat T ds lo hi a) (midFlat T ds lo hi a) := by
  have a1 := h.a1
  have a2 := h.a2
  have _ := h.mag
  have _ := h.mag0
  have _ := h.magn
  have _ : Mag T (2 ^ 18) := ⟨by rw [abs_of_nonneg hT0]; exact_mod_cast hT⟩
  have _ : Mag ds (2 ^ 40) := ⟨by exact_mod_cast hds⟩
  unfold midFlat IntegerCurve.midFlat
  refine Ge.bind (Ge.div (by norm_num) (by norm_num)) (fun tAcc htAcc => ?_)
  have ht1 : |tAcc| ≤ 2 ^ 18 + 1 := by
    obtain ⟨-, rfl⟩ := cdiv_some htAcc
    refine mul_le_cancel a1 ?_
    have := tdiv_mul_abs (hi - lo - 1) a
    rw [abs_mul, abs_of_nonneg (show 0 ≤ a by omega), mul_comm] at this
    refine this.trans ?_
    have : a * T ≤ a * 2 ^ 18 := mul_le_mul_of_nonneg_left hT (by omega)
    rw [abs_le]
    constructor <;> omega
  have _ : Mag tAcc (2 ^ 18 + 1) := ⟨by exact_mod_cast ht1⟩
  refine Ge.eval (by norm_num) (Ge.eval (by norm_num) ?_)
  refine Ge.ite (fun _ => Ge.eval (by norm_num) (Le.refl _)) (fun hk0 => ?_)
  refine Ge.eval (by norm_num) (Ge.eval (by norm_num) (Ge.ite (fun _ => Le.refl _) (fun hcond => ?_)))
  refine Ge.bind (Le.refl _) (fun _ hk => Ge.eval (by norm_num) (Ge.bind (Le.refl _) (fun _ hpos => ?_)))
  have hk := cassert_some hk
  have hpos := cassert_some hpos
  dsimp only at hk hpos hcond hk0 ⊢
  have mk : |2 * (lo - hi + a * T)| ≤ 2 ^ 36 := (Mag.le (v := 2 * (lo - hi + a * T))).trans (by norm_num)
  have mm : |lo - hi + a * tAcc + 2 * (hi - a * tAcc) * T + a * tAcc * tAcc| ≤ 2 ^ 56 :=
    (Mag.le (v := lo - hi + a * tAcc + 2 * (hi - a * tAcc) * T + a * tAcc * tAcc)).trans (by norm_num)
  generalize hkk : 2 * (lo - hi + a * T) = k at *
  generalize hmm : lo - hi + a * tAcc + 2 * (hi - a * tAcc) * T + a * tAcc * tAcc = m at *
  have _ : Mag k (2 ^ 36) := ⟨by exact_mod_cast mk⟩
  have _ : Mag m (2 ^ 56) := ⟨by exact_mod_cast mm⟩
  refine Ge.bind (Ge.div (by norm_num) (by norm_num)) (fun t ht => ?_)
  have htt : |t| ≤ 2 ^ 18 + 2 := by
    obtain ⟨-, rfl⟩ := cdiv_some ht
    refine mul_le_cancel (show 1 ≤ k by omega) ?_
    have := tdiv_mul_abs (ds - m + k) k
    rw [abs_mul, abs_of_nonneg (show 0 ≤ k by omega), mul_comm] at this
    refine this.trans ?_
    rw [abs_of_nonneg (show 0 ≤ ds - m + k by omega)]
    push Not at hcond
    have h1 := hcond.1
    have h2 := mul_le_mul_of_nonneg_left ((le_abs_self _).trans ht1) (show 0 ≤ k by omega)
    have e : k * (2 ^ 18 + 2) = k * (2 ^ 18 + 1) + k := by ring
    omega
  have _ : Mag t (2 ^ 18 + 2) := ⟨by exact_mod_cast htt⟩
  refine Ge.eval (by norm_num) (Ge.eval (by norm_num) (Ge.ite (fun _ => ?_) (fun _ => ?_)))
  · refine Ge.eval (by norm_num) (Ge.bind (Ge.div (by norm_num) (by norm_num)) (fun q hq => ?_))
    have hX : |k * t + m - ds| ≤ 2 ^ 58 := (Mag.le (v := k * t + m - ds)).trans (by norm_num)
    obtain ⟨-, hq⟩ := cdiv_some hq
    have hq1 : |q| ≤ 2 ^ 58 := by rw [hq]; exact (abs_tdiv_le _ _).trans hX
    have hq2 : |q * (2 * (T - tAcc - 1))| ≤ 2 ^ 58 := by rw [hq]; exact (tdiv_mul_abs _ _).trans hX
    have _ : Mag q (2 ^ 58) := ⟨by exact_mod_cast hq1⟩
    refine Ge.eval (by norm_num) ?_
    have hv : |hi - a * (tAcc - t)| ≤ 2 ^ 36 := (Mag.le (v := hi - a * (tAcc - t))).trans (by norm_num)
    generalize hi - a * (tAcc - t) = vMax at *
    have _ : Mag vMax (2 ^ 36) := ⟨by exact_mod_cast hv⟩
    have ee : 2 * (vMax - (vMax - q)) * (T - tAcc - 1) = q * (2 * (T - tAcc - 1)) := by ring
    have _ : Ev (2 *? (vMax -? (some (vMax - q))) *? (T -? tAcc -? 1)) (2 * (vMax - (vMax - q)) * (T - tAcc - 1)) (2 ^ 58) :=
      Ev.prod (by norm_num) (by norm_num) (by norm_num) (by rw [ee]; exact_mod_cast hq2)
    have _ : Mag (2 * (vMax - (vMax - q)) * (T - tAcc - 1)) (2 ^ 58) := ⟨by rw [ee]; exact_mod_cast hq2⟩
    exact Ge.eval (by norm_num) (Ge.eval (by norm_num) (Le.refl _))
  · have hS : |(2 * lo + a * t) * t + 2 * (lo + a * t) * (T - tAcc - 1)
      + hi - (tAcc - t) * a + lo + t * a + (2 * hi - (tAcc - t) * a) * (tAcc - t)| ≤ 2 ^ 58 :=
      (Mag.le (v := (2 * lo + a * t) * t + 2 * (lo + a * t) * (T - tAcc - 1)
      + hi - (tAcc - t) * a + lo + t * a + (2 * hi - (tAcc - t) * a) * (tAcc - t))).trans (by norm_num)
    generalize (2 * lo + a * t) * t + 2 * (lo + a * t) * (T - tAcc - 1)
      + hi - (tAcc - t) * a + lo + t * a + (2 * hi - (tAcc - t) * a) * (tAcc - t) = S at *
    have _ : Mag S (2 ^ 58) := ⟨by exact_mod_cast hS⟩
    refine Ge.eval (by norm_num) (Ge.bind (Ge.div (by norm_num) (by norm_num)) (fun q hq => ?_))
    have hX : |S - ds| ≤ 2 ^ 59 := (Mag.le (v := S - ds)).trans (by norm_num)
    obtain ⟨-, hq⟩ := cdiv_some hq
    have hq1 : |q| ≤ 2 ^ 59 := by rw [hq]; exact (abs_tdiv_le _ _).trans hX
    have hq2 : |q * (2 * (T - tAcc))| ≤ 2 ^ 59 := by rw [hq]; exact (tdiv_mul_abs _ _).trans hX
    have _ : Mag q (2 ^ 59) := ⟨by exact_mod_cast hq1⟩
    refine Ge.eval (by norm_num) ?_
    have hv : |lo + a * t| ≤ 2 ^ 36 := (Mag.le (v := lo + a * t)).trans (by norm_num)
    generalize lo + a * t = vMin at *
    have _ : Mag vMin (2 ^ 36) := ⟨by exact_mod_cast hv⟩
    have ee : 2 * (vMin - (vMin - q)) * (T - tAcc) = q * (2 * (T - tAcc)) := by ring
    have _ : Ev (2 *? (vMin -? (some (vMin - q))) *? (T -? tAcc)) (2 * (vMin - (vMin - q)) * (T - tAcc)) (2 ^ 59) :=
      Ev.prod (by norm_num) (by norm_num) (by norm_num) (by rw [ee]; exact_mod_cast hq2)
    have _ : Mag (2 * (vMin - (vMin - q)) * (T - tAcc)) (2 ^ 59) := ⟨by rw [ee]; exact_mod_cast hq2⟩
    exact Ge.eval (by norm_num) (Ge.eval (by norm_num) (Le.refl _))

theorem adjustCurveMid_ge {a v0 vn ds T : Int} (h : Small a v0 vn) (hds : |ds| ≤ 2 ^ 40) (hT0 : 0 ≤ T) (hT : T ≤ 2 ^ 18)
    (hgap : |v0 - vn| ≤ a * T) :
    Le (IntegerCurve.adjustCurveMid T ds v0 vn a) (adjustCurveMid T ds v0 vn a) := by
  unfold adjustCurveMid IntegerCurve.adjustCurveMid
  rw [abs_le] at hgap
  refine Ge.bind ?_ (fun _ _ => Le.refl _)
  by_cases hle : v0 ≤ vn
  · simp only [if_pos hle]
    exact midFlat_ge h hds hT0 hT hle (by omega)
  · simp only [if_neg hle]
    exact midFlat_ge ⟨h.a1, h.a2, h.hn, h.h0⟩ hds hT0 hT (by omega) (by omega)

theorem searchFlat_ok {a v0 vn ds T : Int} (h : Small a v0 vn) (hT : |T| ≤ 2 ^ 18) (mn mx smin smax : Int)
    (hmn : Near a v0 vn mn) (hmx : Near a v0 vn mx) (h1 : |smin| ≤ 2 ^ 61) (h2 : |smax| ≤ 2 ^ 61)
    (w : Int × Int × Int × Int) (hw : IntegerCurve.searchFlat T ds v0 vn a mn mx smin smax = some w) :
    searchFlat T ds v0 vn a mn mx smin smax = some w ∧ |w.2.2.1| ≤ 2 ^ 61 ∧ |w.2.2.2| ≤ 2 ^ 61 := by
  refine IntegerCurve.searchFlat.partial_correctness T ds v0 vn a
    (fun mn mx smin smax w => Near a v0 vn mn → Near a v0 vn mx → |smin| ≤ 2 ^ 61 → |smax| ≤ 2 ^ 61 →
      searchFlat T ds v0 vn a mn mx smin smax = some w ∧ |w.2.2.1| ≤ 2 ^ 61 ∧ |w.2.2.2| ≤ 2 ^ 61)
    ?_ mn mx smin smax w hw hmn hmx h1 h2
  clear hw hmn hmx h1 h2 w mn mx smin smax
  intro rec ih mn mx smin smax w hw hmn hmx h1 h2
  have _ : Mag mn (2 ^ 36) := ⟨by exact_mod_cast hmn.mag h⟩
  have _ : Mag mx (2 ^ 36) := ⟨by exact_mod_cast hmx.mag h⟩
  rw [searchFlat, bind_eval _ (by norm_num)]
  split at hw
  · rename_i hle
    rw [if_pos hle]
    obtain rfl := Option.some.inj hw
    exact ⟨rfl, h1, h2⟩
  · rename_i hle
    rw [if_neg hle, bind_eval _ (by norm_num)]
    obtain ⟨s, hs, hw⟩ := Option.bind_eq_some_iff.1 hw
    obtain ⟨m1, m2⟩ := tdiv_mid (x := mn) (y := mx) (by omega)
    rw [add_comm] at m1 m2
    have hm : Near a v0 vn (Int.tdiv (mx + mn) 2) := hmn.between hmx m1.le m2.le
    have hsm := pathDistance_mag h hm hT hs
    rw [pathDistance_ge h hm hT _ hs]
    show (if _ then _ else _) = some w ∧ _
    split at hw
    · rw [if_pos ‹_›]
      exact ih _ _ _ _ w hw hmn hm h1 hsm
    · rw [if_neg ‹_›]
      exact ih _ _ _ _ w hw hm hmx hsm h2

theorem pickFlat_ok {ds v0 vn mn mx smin smax : Int} (hds : |ds| ≤ 2 ^ 40) (h1 : |smin| ≤ 2 ^ 61) (h2 : |smax| ≤ 2 ^ 61) :
    pickFlat ds v0 vn mn mx smin smax = some (IntegerCurve.pickFlat ds v0 vn mn mx smin smax) := by
  have _ : Mag ds (2 ^ 40) := ⟨by exact_mod_cast hds⟩
  have _ : Mag smin (2 ^ 61) := ⟨by exact_mod_cast h1⟩
  have _ : Mag smax (2 ^ 61) := ⟨by exact_mod_cast h2⟩
  unfold pickFlat IntegerCurve.pickFlat
  split
  · rfl
  split
  · rfl
  split
  · rw [bind_eval _ (by norm_num)]; rfl
  · rw [bind_eval _ (by norm_num)]; rfl

theorem peakVel_ok {a v0 vn tl th : Int} (h : Small a v0 vn) (h1 : |tl| ≤ 2 ^ 18) (h2 : |th| ≤ 2 ^ 18) :
    peakVel v0 vn a tl th = some (IntegerCurve.peakVel v0 vn a tl th) := by
  have _ := h.mag
  have _ := h.mag0
  have _ := h.magn
  have _ : Mag tl (2 ^ 18) := ⟨by exact_mod_cast h1⟩
  have _ : Mag th (2 ^ 18) := ⟨by exact_mod_cast h2⟩
  unfold peakVel IntegerCurve.peakVel
  split
  · exact eval (by norm_num)
  split
  · exact eval (by norm_num)
  · rw [bind_eval _ (by norm_num), bind_eval _ (by norm_num)]; rfl

theorem valleyVel_ok {a v0 vn tl th : Int} (h : Small a v0 vn) (h1 : |tl| ≤ 2 ^ 18) (h2 : |th| ≤ 2 ^ 18) :
    valleyVel v0 vn a tl th = some (IntegerCurve.valleyVel v0 vn a tl th) := by
  have _ := h.mag
  have _ := h.mag0
  have _ := h.magn
  have _ : Mag tl (2 ^ 18) := ⟨by exact_mod_cast h1⟩
  have _ : Mag th (2 ^ 18) := ⟨by exact_mod_cast h2⟩
  unfold valleyVel IntegerCurve.valleyVel
  split
  · exact eval (by norm_num)
  split
  · exact eval (by norm_num)
  · rw [bind_eval _ (by norm_num), bind_eval _ (by norm_num)]; rfl

theorem near_of {a v0 vn x y : Int} (hg : |v0 - vn| ≤ a * 2 ^ 18) (hy : |y| ≤ a * 2 ^ 18)
    (hx : x = v0 + y ∨ x = vn + y) : Near a v0 vn x := by
  rw [abs_le] at hg hy
  constructor <;> rw [abs_le] <;> constructor <;> omega

theorem peakVel_near {a v0 vn tl th : Int} (a1 : 1 ≤ a) (hg : |v0 - vn| ≤ a * 2 ^ 18) (h1 : |tl| ≤ 2 ^ 18)
    (h2 : |th| ≤ 2 ^ 18) : Near a v0 vn (IntegerCurve.peakVel v0 vn a tl th) := by
  have k : ∀ t : Int, |t| ≤ 2 ^ 18 → |t * a| ≤ a * 2 ^ 18 := by
    intro t ht
    rw [abs_mul, abs_of_nonneg (show 0 ≤ a by omega), mul_comm]
    exact mul_le_mul_of_nonneg_left ht (by omega)
  have p1 := near_of hg (k tl h1) (Or.inl rfl)
  have p2 := near_of hg (k th h2) (Or.inr rfl)
  unfold IntegerCurve.peakVel
  split
  · exact p1
  split
  · exact p2
  · rcases max_choice (v0 + tl * a) (vn + th * a) with e | e <;> rw [e] <;> assumption

theorem valleyVel_near {a v0 vn tl th : Int} (a1 : 1 ≤ a) (hg : |v0 - vn| ≤ a * 2 ^ 18) (h1 : |tl| ≤ 2 ^ 18)
    (h2 : |th| ≤ 2 ^ 18) : Near a v0 vn (IntegerCurve.valleyVel v0 vn a tl th) := by
  have k : ∀ t : Int, |t| ≤ 2 ^ 18 → |t * -a| ≤ a * 2 ^ 18 := by
    intro t ht
    rw [abs_mul, abs_neg, abs_of_nonneg (show 0 ≤ a by omega), mul_comm]
    exact mul_le_mul_of_nonneg_left ht (by omega)
  have p1 := near_of hg (k tl h1) (Or.inr rfl)
  have p2 := near_of hg (k th h2) (Or.inl rfl)
  unfold IntegerCurve.valleyVel
  split
  · exact p1
  split
  · exact p2
  · rcases min_choice (v0 + th * -a) (vn + tl * -a) with e | e <;> rw [e] <;> assumption

theorem tmid_bound {a T d q : Int} (a1 : 1 ≤ a) (hT : T ≤ 2 ^ 18) (hd : |d| ≤ a * T)
    (h : cdiv (T * a - d) (2 * a) = some q) : |q| ≤ 2 ^ 18 := by
  obtain ⟨-, rfl⟩ := cdiv_some h
  have h1 := tdiv_mul_abs (T * a - d) (2 * a)
  rw [abs_mul, abs_of_nonneg (show 0 ≤ 2 * a by omega)] at h1
  rw [abs_le] at hd
  have e : T * a = a * T := mul_comm _ _
  have h2 : |T * a - d| ≤ 2 * (a * T) := by rw [abs_le, e]; constructor <;> omega
  have h3 : a * |Int.tdiv (T * a - d) (2 * a)| ≤ a * T := by
    have : |Int.tdiv (T * a - d) (2 * a)| * (2 * a) = 2 * (a * |Int.tdiv (T * a - d) (2 * a)|) := by ring
    omega
  exact (mul_le_cancel a1 h3).trans hT

theorem adjustCurve_ge {a v0 vn ds T : Int} (h : Small a v0 vn) (hds : |ds| ≤ 2 ^ 40) (hT0 : 0 ≤ T) (hT : T ≤ 2 ^ 18)
    (hgap : |v0 - vn| ≤ a * T) : Le (IntegerCurve.adjustCurve T ds v0 vn a) (adjustCurve T ds v0 vn a) := by
  have a1 := h.a1
  have a2 := h.a2
  have _ := h.mag
  have _ := h.mag0
  have _ := h.magn
  have hTa : |T| ≤ 2 ^ 18 := by rw [abs_of_nonneg hT0]; exact hT
  have _ : Mag T (2 ^ 18) := ⟨by exact_mod_cast hTa⟩
  have _ : Mag ds (2 ^ 40) := ⟨by exact_mod_cast hds⟩
  have hg : |v0 - vn| ≤ a * 2 ^ 18 := hgap.trans (mul_le_mul_of_nonneg_left hT (by omega))
  unfold adjustCurve IntegerCurve.adjustCurve
  refine Ge.ite (fun _ => Ge.eval (by norm_num) (Ge.eval (by norm_num) (Ge.bind (Le.refl _) (fun _ _ => Le.refl _)))) (fun _ => ?_)
  refine Ge.bind (adjustCurveMid_ge h hds hT0 hT hgap) (fun r _ => ?_)
  cases r with
  | some p => exact Le.refl _
  | none =>
    dsimp only
    refine Ge.bind (Ge.div (by norm_num) (by norm_num)) (fun tl htl => ?_)
    refine Ge.bind (Ge.div (by norm_num) (by norm_num)) (fun th hth => ?_)
    have m1 := tmid_bound a1 hT hgap htl
    have m2 := tmid_bound a1 hT (by rw [abs_sub_comm]; exact hgap) hth
    have _ : Mag tl (2 ^ 18) := ⟨by exact_mod_cast m1⟩
    have _ : Mag th (2 ^ 18) := ⟨by exact_mod_cast m2⟩
    refine Ge.eval (by norm_num) (Ge.bind (Le.refl _) (fun _ _ => Ge.eval (by norm_num) ?_))
    refine Ge.bind (Le.refl _) (fun _ _ => Ge.step (peakVel_ok h m1 m2) (Ge.step (valleyVel_ok h m1 m2) ?_))
    have nx := peakVel_near a1 hg m1 m2
    have nn := valleyVel_near a1 hg m1 m2
    refine Ge.bind (Le.refl _) (fun _ _ => ?_)
    refine Ge.bind (pathDistance_ge h nx hTa) (fun smax hsmax => ?_)
    refine Ge.bind (pathDistance_ge h nn hTa) (fun smin hsmin => ?_)
    have b1 := pathDistance_mag h nx hTa hsmax
    have b2 := pathDistance_mag h nn hTa hsmin
    refine Ge.bind (Le.refl _) (fun _ _ => Ge.bind (Le.refl _) (fun _ _ => ?_))
    refine Ge.bind (fun w hw => (searchFlat_ok h hTa _ _ _ _ nn nx b2 b1 w hw).1) (fun w hw => ?_)
    obtain ⟨-, c1, c2⟩ := searchFlat_ok h hTa _ _ _ _ nn nx b2 b1 w hw
    exact Ge.step (pickFlat_ok hds c1 c2) (Le.refl _)

/-! ### The sequence -/

theorem pushI_bounds {s s' : List AccSegment} {t a : Int} (h : IntegerCurve.pushI s t a = some s') :
    0 ≤ t ∧ t ≤ 65535 ∧ -32768 ≤ a ∧ a ≤ 32767 := by
  unfold IntegerCurve.pushI at h
  obtain ⟨n, h1, h⟩ := Option.bind_eq_some_iff.1 h
  obtain ⟨m, h2, h⟩ := Option.bind_eq_some_iff.1 h
  unfold toU16 at h1
  unfold toI16 at h2
  split at h1
  · split at h2
    · omega
    · simp at h2
  · simp at h1

theorem pushI_ge {s : List AccSegment} {t a : Option Int} {v w : Int} {m n : ℕ} [Ev t v m] [Ev a w n]
    (hm : m < 2 ^ 63) (hn : n < 2 ^ 63) : Le (IntegerCurve.pushI s v w) (pushI s t a) := by
  unfold pushI IntegerCurve.pushI
  exact Ge.eval hm (Ge.bind (Le.refl _) (fun _ _ => Ge.eval hn (Le.refl _)))

theorem pushUp_bounds {s s' : List AccSegment} {v0 vs a1 t1 dv1 : Int}
    (h : IntegerCurve.pushUp s v0 vs a1 t1 dv1 = some s') : t1 ≤ 65536 := by
  unfold IntegerCurve.pushUp at h
  split at h
  · have := pushI_bounds h; omega
  · obtain ⟨_, h1, -⟩ := Option.bind_eq_some_iff.1 h
    have := pushI_bounds h1; omega

theorem pushDown_bounds {s s' : List AccSegment} {vn ve a4 t4 dv4 : Int}
    (h : IntegerCurve.pushDown s vn ve a4 t4 dv4 = some s') : t4 ≤ 65536 := by
  unfold IntegerCurve.pushDown at h
  split at h
  · have := pushI_bounds h; omega
  · obtain ⟨_, -, h1⟩ := Option.bind_eq_some_iff.1 h
    have := pushI_bounds h1; omega

theorem pushFlat_bounds {s s' : List AccSegment} {vs ve tFlat tStep : Int}
    (h : IntegerCurve.pushFlat s vs ve tFlat tStep = some s') : tFlat ≤ 131071 ∧ |tStep| ≤ 65536 := by
  unfold IntegerCurve.pushFlat at h
  split at h
  · obtain ⟨_, h1, h⟩ := Option.bind_eq_some_iff.1 h
    obtain ⟨_, -, h2⟩ := Option.bind_eq_some_iff.1 h
    have := pushI_bounds h1
    have := pushI_bounds h2
    rw [abs_le]
    omega
  · split at h
    · obtain ⟨_, h1, h⟩ := Option.bind_eq_some_iff.1 h
      obtain ⟨_, -, h2⟩ := Option.bind_eq_some_iff.1 h
      have := pushI_bounds h1
      have := pushI_bounds h2
      rw [abs_le]
      omega
    · have := pushI_bounds h
      rw [abs_le]
      omega

theorem crem_some {x y q : Int} (h : crem x y = some q) : y ≠ 0 ∧ q = Int.tmod x y := by
  unfold crem at h
  split at h
  · simp at h
  · exact ⟨‹_›, (Option.some.inj h).symm⟩

theorem stepChoice_bounds {p : DistancePath} {x : Int × Int × Int} (h : IntegerCurve.stepChoice p = some x) :
    |p.vflat - x.1| ≤ 1 ∧ |p.vflat - x.2.1| ≤ 1 ∧ |p.tAdjust| ≤ |x.2.2| := by
  have key : ∀ (u v : Int), 0 < u → (v = u ∨ v = u + 1 ∨ v = -u - 1 ∨ v = -u) → |u| ≤ |v| := by
    intro u v h1 h2
    rw [abs_of_pos h1]
    rcases h2 with rfl | rfl | rfl | rfl
    · exact le_abs_self _
    · exact le_trans (by omega) (le_abs_self _)
    · exact le_trans (by omega) (neg_le_abs _)
    · exact le_trans (by omega) (neg_le_abs _)
  unfold IntegerCurve.stepChoice at h
  split at h
  · rename_i hp
    split at h
    · obtain ⟨r, -, h⟩ := Option.bind_eq_some_iff.1 h
      obtain rfl := Option.some.inj h
      refine ⟨by simp, by dsimp only; rw [abs_le]; omega, key _ _ hp ?_⟩
      dsimp only
      split <;> omega
    · obtain ⟨_, -, h⟩ := Option.bind_eq_some_iff.1 h
      obtain ⟨r, -, h⟩ := Option.bind_eq_some_iff.1 h
      obtain rfl := Option.some.inj h
      refine ⟨by dsimp only; rw [abs_le]; omega, by simp, key _ _ hp ?_⟩
      dsimp only
      split <;> omega
  · split at h
    · rename_i hp
      rw [← abs_neg]
      split at h
      · obtain ⟨r, -, h⟩ := Option.bind_eq_some_iff.1 h
        obtain rfl := Option.some.inj h
        refine ⟨by simp, by dsimp only; rw [abs_le]; omega, ?_⟩
        rw [← abs_neg]
        refine key _ _ (by omega) ?_
        dsimp only
        split <;> omega
      · obtain ⟨_, -, h⟩ := Option.bind_eq_some_iff.1 h
        obtain ⟨r, -, h⟩ := Option.bind_eq_some_iff.1 h
        obtain rfl := Option.some.inj h
        refine ⟨by dsimp only; rw [abs_le]; omega, by simp, ?_⟩
        rw [← abs_neg]
        refine key _ _ (by omega) ?_
        dsimp only
        split <;> omega
    · obtain rfl := Option.some.inj h
      have : p.tAdjust = 0 := by omega
      simp [this]

/-- What a successful conversion says about the path. -/
theorem accSeq_bounds {p : DistancePath} {s : List AccSegment} (h : p.accSeq = some s) (a1 : 1 ≤ p.amax)
    (hT : 1 < p.tTotal) :
    p.tTotal ≤ 2 ^ 18 ∧ |p.tAdjust| ≤ 65536 ∧ |p.vflat - p.v0| ≤ p.amax * 2 ^ 17 ∧
      |p.vflat - p.vn| ≤ p.amax * 2 ^ 17 := by
  unfold DistancePath.accSeq at h
  dsimp only at h
  rw [if_neg (by omega)] at h
  obtain ⟨⟨vs, ve, ts⟩, hx, h⟩ := Option.bind_eq_some_iff.1 h
  obtain ⟨y, hy, h⟩ := Option.bind_eq_some_iff.1 h
  obtain ⟨z, hz, h⟩ := Option.bind_eq_some_iff.1 h
  obtain ⟨_, h0, h⟩ := Option.bind_eq_some_iff.1 h
  obtain ⟨s1, h1, h⟩ := Option.bind_eq_some_iff.1 h
  obtain ⟨_, -, h⟩ := Option.bind_eq_some_iff.1 h
  obtain ⟨s2, h2, h3⟩ := Option.bind_eq_some_iff.1 h
  have h0 := cassert_some h0
  have b1 := pushUp_bounds h1
  have b2 := pushFlat_bounds h2
  have b3 := pushDown_bounds h3
  obtain ⟨e1, e2, e3⟩ := stepChoice_bounds hx
  obtain ⟨-, y2, -⟩ := divRemAway_bounds a1 hy
  obtain ⟨-, z2, -⟩ := divRemAway_bounds a1 hz
  have y4 : p.amax * |y.1| ≤ p.amax * 65536 := mul_le_mul_of_nonneg_left b1 (by omega)
  have z4 : p.amax * |z.1| ≤ p.amax * 65536 := mul_le_mul_of_nonneg_left b3 (by omega)
  dsimp only at *
  rw [abs_le] at e1 e2
  refine ⟨by omega, by omega, ?_, ?_⟩
  · have := abs_le.1 (y2.trans y4)
    rw [abs_le]; constructor <;> omega
  · have := abs_le.1 (z2.trans z4)
    rw [abs_le]; constructor <;> omega

theorem stepChoice_ge {p : DistancePath} (h : Small p.amax p.v0 p.vn) (h1 : |p.vflat| ≤ 2 ^ 36) (h2 : |p.tAdjust| ≤ 2 ^ 20) :
    Le (IntegerCurve.stepChoice p) (stepChoice p) := by
  have _ := h.mag
  have _ := h.mag0
  have _ := h.magn
  have _ : Mag p.vflat (2 ^ 36) := ⟨by exact_mod_cast h1⟩
  have _ : Mag p.tAdjust (2 ^ 20) := ⟨by exact_mod_cast h2⟩
  unfold stepChoice IntegerCurve.stepChoice
  split
  · split
    · refine Ge.eval (by norm_num) (Ge.eval (by norm_num) (Ge.bind (Ge.rem (by norm_num) (by norm_num)) (fun r _ => ?_)))
      split
      · exact Ge.eval (by norm_num) (Le.refl _)
      · exact Le.refl _
    · refine Ge.bind (Le.refl _) (fun _ _ => Ge.eval (by norm_num) (Ge.bind (Ge.rem (by norm_num) (by norm_num)) (fun r _ => ?_)))
      split
      · exact Ge.eval (by norm_num) (Le.refl _)
      · exact Le.refl _
  · split
    · split
      · refine Ge.eval (by norm_num) (Ge.bind (Ge.rem (by norm_num) (by norm_num)) (fun r _ => ?_))
        split
        · exact Ge.eval (by norm_num) (Le.refl _)
        · exact Le.refl _
      · refine Ge.bind (Le.refl _) (fun _ _ => Ge.eval (by norm_num) (Ge.eval (by norm_num)
          (Ge.bind (Ge.rem (by norm_num) (by norm_num)) (fun r _ => ?_))))
        split
        · exact Ge.eval (by norm_num) (Le.refl _)
        · exact Le.refl _
    · exact Le.refl _

theorem pushUp_ge {s : List AccSegment} {v0 vs a1 t1 dv1 : Int} (h0 : |v0| ≤ 2 ^ 27) (hs : |vs| ≤ 2 ^ 37)
    (ha : |a1| ≤ 2 ^ 15) (ht : |t1| ≤ 2 ^ 21) :
    Le (IntegerCurve.pushUp s v0 vs a1 t1 dv1) (pushUp s v0 vs a1 t1 dv1) := by
  have _ : Mag v0 (2 ^ 27) := ⟨by exact_mod_cast h0⟩
  have _ : Mag vs (2 ^ 37) := ⟨by exact_mod_cast hs⟩
  have _ : Mag a1 (2 ^ 15) := ⟨by exact_mod_cast ha⟩
  have _ : Mag t1 (2 ^ 21) := ⟨by exact_mod_cast ht⟩
  unfold pushUp IntegerCurve.pushUp
  exact Ge.ite (fun _ => pushI_ge (by norm_num) (by norm_num)) (fun _ => Ge.bind (pushI_ge (by norm_num) (by norm_num))
    (fun _ _ => pushI_ge (by norm_num) (by norm_num)))

theorem pushDown_ge {s : List AccSegment} {vn ve a4 t4 dv4 : Int} (h0 : |vn| ≤ 2 ^ 27) (hs : |ve| ≤ 2 ^ 37)
    (ha : |a4| ≤ 2 ^ 15) (ht : |t4| ≤ 2 ^ 21) :
    Le (IntegerCurve.pushDown s vn ve a4 t4 dv4) (pushDown s vn ve a4 t4 dv4) := by
  have _ : Mag vn (2 ^ 27) := ⟨by exact_mod_cast h0⟩
  have _ : Mag ve (2 ^ 37) := ⟨by exact_mod_cast hs⟩
  have _ : Mag a4 (2 ^ 15) := ⟨by exact_mod_cast ha⟩
  have _ : Mag t4 (2 ^ 21) := ⟨by exact_mod_cast ht⟩
  unfold pushDown IntegerCurve.pushDown
  exact Ge.ite (fun _ => pushI_ge (by norm_num) (by norm_num)) (fun _ => Ge.bind (pushI_ge (by norm_num) (by norm_num))
    (fun _ _ => pushI_ge (by norm_num) (by norm_num)))

theorem pushFlat_ge {s : List AccSegment} {vs ve tFlat tStep : Int} (hs : |vs| ≤ 2 ^ 37) (he : |ve| ≤ 2 ^ 37)
    (hf : |tFlat| ≤ 2 ^ 23) (ht : |tStep| ≤ 2 ^ 21) :
    Le (IntegerCurve.pushFlat s vs ve tFlat tStep) (pushFlat s vs ve tFlat tStep) := by
  have _ : Mag vs (2 ^ 37) := ⟨by exact_mod_cast hs⟩
  have _ : Mag ve (2 ^ 37) := ⟨by exact_mod_cast he⟩
  have _ : Mag tFlat (2 ^ 23) := ⟨by exact_mod_cast hf⟩
  have _ : Mag tStep (2 ^ 21) := ⟨by exact_mod_cast ht⟩
  unfold pushFlat IntegerCurve.pushFlat
  exact Ge.ite (fun _ => Ge.bind (pushI_ge (by norm_num) (by norm_num)) (fun _ _ => Ge.bind (pushI_ge (by norm_num) (by norm_num))
      (fun _ _ => pushI_ge (by norm_num) (by norm_num))))
    (fun _ => Ge.ite (fun _ => Ge.bind (pushI_ge (by norm_num) (by norm_num)) (fun _ _ => Ge.bind (pushI_ge (by norm_num) (by norm_num))
      (fun _ _ => pushI_ge (by norm_num) (by norm_num))))
      (fun _ => pushI_ge (by norm_num) (by norm_num)))

theorem stepChoice_step {p : DistancePath} {x : Int × Int × Int} (h : IntegerCurve.stepChoice p = some x) :
    |x.2.2| ≤ |p.tAdjust| + 1 := by
  unfold IntegerCurve.stepChoice at h
  have key : ∀ (u v : Int), (v = u ∨ v = u + 1 ∨ v = u - 1 ∨ v = -u - 1 ∨ v = -u ∨ v = -u + 1) → |v| ≤ |u| + 1 := by
    intro u v h
    have h1 := le_abs_self u
    have h2 := neg_le_abs u
    rw [abs_le]
    rcases h with rfl | rfl | rfl | rfl | rfl | rfl <;> constructor <;> omega
  split at h
  · split at h
    · obtain ⟨r, -, h⟩ := Option.bind_eq_some_iff.1 h
      obtain rfl := Option.some.inj h
      apply key
      dsimp only
      split <;> simp
    · obtain ⟨_, -, h⟩ := Option.bind_eq_some_iff.1 h
      obtain ⟨r, -, h⟩ := Option.bind_eq_some_iff.1 h
      obtain rfl := Option.some.inj h
      apply key
      dsimp only
      split <;> simp
  · split at h
    · split at h
      · obtain ⟨r, -, h⟩ := Option.bind_eq_some_iff.1 h
        obtain rfl := Option.some.inj h
        apply key
        dsimp only
        split <;> simp
      · obtain ⟨_, -, h⟩ := Option.bind_eq_some_iff.1 h
        obtain ⟨r, -, h⟩ := Option.bind_eq_some_iff.1 h
        obtain rfl := Option.some.inj h
        apply key
        dsimp only
        split <;> simp
    · obtain rfl := Option.some.inj h
      have := abs_nonneg p.tAdjust
      simp
      omega

theorem Ge.sign {α : Type} {c : Prop} [Decidable c] {a : Int} {f : Int → Option α} {p : Option α} (ha : |a| ≤ 2 ^ 15)
    (k : Le p (f (if c then a else -a))) : Le p (signed c a >>= f) := by
  have _ : Mag a (2 ^ 15) := ⟨by exact_mod_cast ha⟩
  unfold signed
  split at k
  · rw [if_pos ‹_›]; exact k
  · rw [if_neg ‹_›]; exact Ge.eval (by norm_num) k

theorem accSeq_ge {p : DistancePath} (h : Small p.amax p.v0 p.vn) : Le p.accSeq (accSeq p) := by
  intro w hw
  have a1 := h.a1
  have a2 := h.a2
  have _ := h.mag
  have _ := h.mag0
  have _ := h.magn
  by_cases hT : p.tTotal ≤ 1
  · revert w
    unfold accSeq DistancePath.accSeq
    dsimp only
    rw [if_pos hT, if_pos hT]
    refine Ge.ite (fun _ => Le.refl _) (fun _ => Ge.eval (by norm_num) (Ge.bind (Le.refl _) (fun _ _ => ?_)))
    exact pushI_ge (by norm_num) (by norm_num)
  · obtain ⟨hT2, hadj, hf1, hf2⟩ := accSeq_bounds hw a1 (by omega)
    have hvf : |p.vflat| ≤ 2 ^ 36 := by
      have h1 := abs_le.1 h.h0
      have h2 := abs_le.1 hf1
      rw [abs_le]; constructor <;> omega
    have haa : ∀ c : Prop, ∀ _ : Decidable c, |if c then p.amax else -p.amax| ≤ 2 ^ 15 := by
      intro c _
      split
      · rw [abs_of_nonneg (by omega)]; exact a2
      · rw [abs_neg, abs_of_nonneg (by omega)]; exact a2
    have _ : Mag p.tTotal (2 ^ 18) := ⟨by rw [abs_of_nonneg (by omega)]; exact_mod_cast hT2⟩
    revert w
    intro w hw
    revert w
    unfold accSeq DistancePath.accSeq
    dsimp only
    rw [if_neg hT, if_neg hT]
    refine Ge.bind (stepChoice_ge h hvf (hadj.trans (by norm_num))) (fun x hx => ?_)
    obtain ⟨e1, e2, -⟩ := stepChoice_bounds hx
    have e3 := stepChoice_step hx
    rw [abs_le] at e1 e2
    have hvf' := abs_le.1 hvf
    have f1 := abs_le.1 hf1
    have f2 := abs_le.1 hf2
    have x1 : |x.1| ≤ 2 ^ 37 := by rw [abs_le]; constructor <;> omega
    have x2 : |x.2.1| ≤ 2 ^ 37 := by rw [abs_le]; constructor <;> omega
    have _ : Mag x.1 (2 ^ 37) := ⟨by exact_mod_cast x1⟩
    have _ : Mag x.2.1 (2 ^ 37) := ⟨by exact_mod_cast x2⟩
    have n1 : |x.1 - p.v0| ≤ p.amax * 2 ^ 20 := by rw [abs_le]; constructor <;> omega
    have n2 : |x.2.1 - p.vn| ≤ p.amax * 2 ^ 20 := by rw [abs_le]; constructor <;> omega
    refine Ge.eval (by norm_num) (Ge.bind (divRemAway_ge a1 a2 (n1.trans (by omega))) (fun y hy => ?_))
    refine Ge.eval (by norm_num) (Ge.bind (divRemAway_ge a1 a2 (n2.trans (by omega))) (fun z hz => ?_))
    obtain ⟨my, _⟩ := near_div a1 a2 n1 hy
    obtain ⟨mz, _⟩ := near_div a1 a2 n2 hz
    have ty : |(|y.1|)| ≤ 2 ^ 21 := by rw [abs_abs]; exact my.le.trans (by norm_num)
    have tz : |(|z.1|)| ≤ 2 ^ 21 := by rw [abs_abs]; exact mz.le.trans (by norm_num)
    have hm : |p.amax| ≤ 2 ^ 15 := by rw [abs_of_nonneg (by omega)]; exact a2
    refine Ge.eval (by norm_num) (Ge.eval (by norm_num) (Ge.sign hm (Ge.sign hm (Ge.eval (by norm_num) ?_))))
    refine Ge.bind (Le.refl _) (fun _ _ => Ge.eval (by norm_num) ?_)
    refine Ge.bind (pushUp_ge h.h0 x1 (haa _ _) ty) (fun _ _ => Ge.bind (Le.refl _) (fun _ _ => ?_))
    refine Ge.bind (pushFlat_ge x1 x2 ?_ (e3.trans (by omega))) (fun _ _ => pushDown_ge h.hn x2 (haa _ _) tz)
    refine (Mag.le (v := p.tTotal - |y.1| - |z.1|)).trans (by norm_num)

theorem mapM_ge {α β : Type} {f g : α → Option β} (l : List α) (h : ∀ x ∈ l, Le (g x) (f x)) :
    Le (l.mapM g) (l.mapM f) := by
  induction l with
  | nil => exact Le.refl _
  | cons x l ih =>
    rw [List.mapM_cons, List.mapM_cons]
    exact Ge.bind (h x (by simp)) (fun _ _ => Ge.bind (ih (fun y hy => h y (by simp [hy]))) (fun _ _ => Le.refl _))

/-- Limits for which nothing overflows. -/
structure Bounded (l : PathLimits) : Prop where
  a1 : 1 ≤ l.a
  a2 : l.a ≤ 2 ^ 15
  v1 : 1 ≤ l.vmax
  v2 : l.vmax ≤ 2 ^ 27
  h0 : |l.v0| ≤ l.vmax
  hn : |l.vn| ≤ l.vmax
  ds : |l.ds| ≤ 2 ^ 40

theorem Bounded.small {l : PathLimits} (h : Bounded l) : Small l.a l.v0 l.vn :=
  ⟨h.a1, h.a2, h.h0.trans h.v2, h.hn.trans h.v2⟩

theorem Bounded.valid {l : PathLimits} (h : Bounded l) : Valid l.ds l.v0 l.vn l.a l.vmax :=
  ⟨h.a1, h.v1, h.v2.trans (by norm_num [bigV]), h.h0, h.hn, h.ds.trans (by norm_num [bigT])⟩

theorem commonLengths_ge (ls : List PathLimits) (h : ∀ l ∈ ls, Bounded l) :
    ∀ r, Le (IntegerCurve.commonLengths r ls) (commonLengths r ls) := by
  induction ls with
  | nil => exact fun r => Le.refl _
  | cons l ls ih =>
    intro r
    have hl := h l (by simp)
    exact Ge.bind (shortestCurveLength_ge hl.small hl.ds hl.h0 hl.hn hl.v2)
      (fun _ _ => ih (fun x hx => h x (by simp [hx])) _)

open Spec in
theorem bounds_contains {m : MultiRange Int} {b : Int × Int} (hn : AllNonempty m.ranges) (h : m.bounds = some b) :
    Contains m.ranges b.1 := by
  obtain ⟨rs⟩ := m
  cases rs with
  | nil => simp [MultiRange.bounds] at h
  | cons f rs =>
    have hf := hn f (by simp)
    refine ⟨f, by simp, ?_⟩
    obtain ⟨l, hl⟩ : ∃ l, (f :: rs).getLast? = some l := by
      cases h : (f :: rs).getLast? with
      | none => simp at h
      | some l => exact ⟨l, rfl⟩
    simp only [MultiRange.bounds, hl, List.head?_cons, Option.some.injEq] at h
    subst h
    exact ⟨le_rfl, hf⟩

theorem path_ge {l : PathLimits} {T : Int} (hl : Bounded l)
    (hs : SideOK l.ds l.v0 l.vn l.a l.vmax T ∧ SideOK (-l.ds) (-l.v0) (-l.vn) l.a l.vmax T) :
    Le ((IntegerCurve.adjustCurve T l.ds l.v0 l.vn l.a) >>= fun p => p.accSeq)
      ((adjustCurve T l.ds l.v0 l.vn l.a) >>= fun p => accSeq p) := by
  intro w hw
  obtain ⟨p, hp, hseq⟩ := Option.bind_eq_some_iff.1 hw
  obtain ⟨h1, p', d, k, q1, q2, q3, q4, q5, -⟩ := accepted hl.valid hs.1 hs.2
  rw [hp] at q1
  obtain rfl := Option.some.inj q1
  have hT : T ≤ 2 ^ 18 := by
    by_cases h : 1 < p.tTotal
    · have := (accSeq_bounds hseq (by rw [q4]; exact hl.a1) h).1
      omega
    · omega
  have hg := (hs.1.hi hl.valid).1
  exact Option.bind_eq_some_iff.2 ⟨p, adjustCurve_ge hl.small hl.ds (by omega) hT hg _ hp,
    accSeq_ge (by rw [q2, q3, q4]; exact hl.small) _ hseq⟩

open Spec in
theorem shortestCurveSequences_ge {ls : List PathLimits} (h : ∀ l ∈ ls, Bounded l) :
    Le (IntegerCurve.shortestCurveSequences ls) (shortestCurveSequences ls) := by
  unfold shortestCurveSequences IntegerCurve.shortestCurveSequences
  refine Ge.bind (Le.refl _) (fun r1 hr1 => ?_)
  refine Ge.bind (commonLengths_ge ls h r1) (fun m hm => ?_)
  refine Ge.bind (Le.refl _) (fun b hb => ?_)
  have o1 : (MultiRange.new : MultiRange Int).or i64Min i64Max
      = some (MultiRange.new.orBody i64Min i64Max) := by
    have hi : i64Min < i64Max := by norm_num [i64Min, i64Max]
    simp [MultiRange.or]; omega
  have hi : i64Min < i64Max := by norm_num [i64Min, i64Max]
  have s1 := MultiRange.orBody_spec (MultiRange.new : MultiRange Int) i64Min i64Max (by omega)
    (by simp [MultiRange.new, Ordered])
  rw [o1] at hr1
  obtain rfl := Option.some.inj hr1
  obtain ⟨m', e, o, n, c⟩ := commonLengths_spec _ ls s1.1
    (s1.2.2 (by omega) (by simp [MultiRange.new, AllNonempty])) (fun l hl => (h l hl).valid)
  rw [hm] at e
  obtain rfl := Option.some.inj e
  have hc := ((c b.1).1 (bounds_contains n hb)).2
  exact mapM_ge ls (fun l hl => path_ge (h l hl) (hc l hl))

end StepperPaths.Checked
