import Verif.Proof.Checked
import Verif.Proof.IntegerCurve.Inside

/-!
What `shortest_curve_sequences` returns when the velocities at the ends are not above the limit, but may be below its negative.
All that is assumed is that it returns: no bounds on the distances.
-/

namespace StepperPaths.Checked.OneSide
open Solve Spec MultiRange IntegerCurve

/-! ### `speed_limited_curve` for any velocities -/

/-- The duration of the ramp to the limit, negative above it. -/
def up (a vmax v : ℤ) : ℤ := Int.fdiv (vmax - v + a - 1) a

/-- The distance gained by the ramp, compared to going at the limit all the time. -/
def gain (a vmax v : ℤ) : ℤ := (2 * v + up a vmax v * a) * up a vmax v + (vmax - v - a * up a vmax v) - 2 * vmax * up a vmax v

/-- The distance of the path that is at the limit between the ramps. -/
def reach (v0 vn a vmax T : ℤ) : ℤ := 2 * vmax * T + gain a vmax v0 + gain a vmax vn

theorem up_spec {a : ℤ} (ha : 0 < a) (vmax v : ℤ) :
    vmax - v ≤ a * up a vmax v ∧ a * up a vmax v < vmax - v + a := by
  unfold up
  rw [Int.fdiv_eq_ediv_of_nonneg _ ha.le]
  have h1 := Int.emod_nonneg (vmax - v + a - 1) ha.ne'
  have h2 := Int.emod_lt_of_pos (vmax - v + a - 1) ha
  have h3 := Int.mul_ediv_add_emod (vmax - v + a - 1) a
  omega

theorem up_eq {a vmax v : ℤ} (ha : 0 < a) (h : v ≤ vmax) : up a vmax v = rt a (vmax - v) := by
  obtain ⟨h1, h2⟩ := up_spec ha vmax v
  exact (rt_eq ha (by rw [abs_of_nonneg (by omega)]; omega) (by rw [abs_of_nonneg (by omega)]; exact h1)).symm

theorem up_nonpos {a vmax v : ℤ} (ha : 0 < a) (h : vmax ≤ v) : up a vmax v ≤ 0 := by
  obtain ⟨h1, h2⟩ := up_spec ha vmax v
  by_contra hc
  have : a ≤ a * up a vmax v := by nlinarith
  omega

theorem gain_eq {a vmax v : ℤ} (ha : 0 < a) (h : v ≤ vmax) : gain a vmax v = gg a (vmax - v) := by
  unfold gain gg
  rw [up_eq ha h, if_pos (by omega)]
  ring

theorem gain_nonpos {a vmax v : ℤ} (ha : 0 < a) (h : vmax ≤ v) : gain a vmax v ≤ 0 := by
  obtain ⟨h1, h2⟩ := up_spec ha vmax v
  have h3 := up_nonpos ha h
  unfold gain
  generalize up a vmax v = u at *
  nlinarith

theorem gg_nonneg {a d : ℤ} (ha : 0 < a) (h : d ≤ 0) : 0 ≤ gg a d := by
  rcases h.lt_or_eq with h | rfl
  · have hb := rt_bounds ha d
    have hn := rt_nonneg ha d
    unfold gg
    rw [if_neg (by omega)]
    rw [abs_of_neg h] at hb
    generalize rt a d = r at *
    have hr : 1 ≤ r := by
      by_contra hc
      have : r = 0 := by omega
      subst this
      omega
    nlinarith [mul_nonneg (show (0 : ℤ) ≤ r - 1 by omega) (show (0 : ℤ) ≤ r by omega),
      mul_nonneg (show 0 ≤ 2 * r - 1 by omega) (show 0 ≤ -d - (a * r - a) by omega),
      mul_nonneg ha.le (mul_nonneg (show (0 : ℤ) ≤ r - 1 by omega) (show (0 : ℤ) ≤ r - 1 by omega))]
  · rw [gg_zero ha]

/-- What is known about a duration accepted in one direction. -/
def Side (ds v0 vn a vmax T : ℤ) : Prop :=
  (up a vmax v0 + up a vmax vn ≤ T ∧ ds ≤ reach v0 vn a vmax T) ∨
  (ds < reach v0 vn a vmax (up a vmax v0 + up a vmax vn) ∧ tMin v0 vn a ≤ T ∧ 0 ≤ accPoly ds v0 vn a T)

/-- Velocities of 32 bits. -/
structure Small (v0 vn a vmax : ℤ) : Prop where
  a_pos : 1 ≤ a
  v_pos : 1 ≤ vmax
  v_le : vmax ≤ 2 ^ 31
  h0 : |v0| ≤ 2 ^ 31
  hn : |vn| ≤ 2 ^ 31

theorem Small.neg {v0 vn a vmax : ℤ} (h : Small v0 vn a vmax) : Small (-v0) (-vn) a vmax :=
  ⟨h.a_pos, h.v_pos, h.v_le, by rw [abs_neg]; exact h.h0, by rw [abs_neg]; exact h.hn⟩

theorem up_le {v0 vn a vmax : ℤ} (h : Small v0 vn a vmax) : up a vmax v0 ≤ 2 ^ 33 ∧ up a vmax vn ≤ 2 ^ 33 := by
  have ha : 0 < a := h.a_pos
  have key : ∀ v, |v| ≤ 2 ^ 31 → up a vmax v ≤ 2 ^ 33 := by
    intro v hv
    obtain ⟨h1, h2⟩ := up_spec ha vmax v
    have := h.v_le
    rw [abs_le] at hv
    by_contra hc
    have h3 : 2 ^ 33 + 1 ≤ up a vmax v := by omega
    have h4 := mul_le_mul_of_nonneg_left h3 ha.le
    nlinarith
  exact ⟨key _ h.h0, key _ h.hn⟩

theorem div_le {x y w : ℤ} (h : some x /? some y = some w) (hy : 2 ≤ y) (hx : x ≤ i64Max) : w ≤ 2 ^ 62 ∧ w = Int.tdiv x y := by
  unfold Checked.div at h
  simp only [Option.bind_some] at h
  unfold cdiv at h
  rw [if_neg (by omega)] at h
  have hw := ck_sound h
  refine ⟨?_, hw⟩
  rw [hw]
  rcases le_total 0 x with h0 | h0
  · rw [Int.tdiv_eq_ediv_of_nonneg h0]
    have : x / y ≤ x / 2 := by
      rw [Int.ediv_le_iff_le_mul (by omega)]
      have h2 := Int.emod_nonneg x (show (2 : ℤ) ≠ 0 by norm_num)
      have h3 := Int.emod_lt_of_pos x (show (0 : ℤ) < 2 by norm_num)
      have h4 := Int.mul_ediv_add_emod x 2
      have h5 : 0 ≤ x / 2 := by omega
      nlinarith
    have : i64Max = 9223372036854775807 := rfl
    omega
  · have h1 : Int.tdiv x y ≤ 0 := by
      rw [show x = -(-x) by ring, Int.neg_tdiv]
      have := Int.tdiv_nonneg (show 0 ≤ -x by omega) (show 0 ≤ y by omega)
      omega
    exact h1.trans (by norm_num)

theorem ck_le {x w : ℤ} (h : ck x = some w) : w = x ∧ i64Min ≤ x ∧ x ≤ i64Max := by
  refine ⟨ck_sound h, ?_⟩
  unfold ck at h
  split at h
  · assumption
  · cases h

theorem sub_ok {x y : Option ℤ} {w : ℤ} (h : x -? y = some w) : i64Min ≤ w ∧ w ≤ i64Max := by
  unfold Checked.sub at h
  obtain ⟨a, -, h⟩ := Option.bind_eq_some_iff.1 h
  obtain ⟨b, -, h⟩ := Option.bind_eq_some_iff.1 h
  have := ck_le h
  omega

theorem slc_some {ds v0 vn a vmax : ℤ} {r : MultiRange ℤ} (h : Small v0 vn a vmax)
    (hr : Checked.speedLimitedCurve ds v0 vn a vmax = some r) :
    (r.isEmpty = false ∧ Ordered r.ranges ∧ AllNonempty r.ranges ∧
      ∀ T, Contains r.ranges T → up a vmax v0 + up a vmax vn ≤ T ∧ ds ≤ reach v0 vn a vmax T) ∨
    (r.isEmpty = true ∧ ds < reach v0 vn a vmax (up a vmax v0 + up a vmax vn)) := by
  have ha : 0 < a := h.a_pos
  have hv := h.v_pos
  unfold Checked.speedLimitedCurve at hr
  obtain ⟨n1, e1, hr⟩ := Option.bind_eq_some_iff.1 hr
  obtain rfl := (inferInstance : Ev (some vmax -? some v0 +? some a -? 1) _ _).sound _ e1
  obtain ⟨_, -, hr⟩ := Option.bind_eq_some_iff.1 hr
  obtain ⟨t1, e2, hr⟩ := Option.bind_eq_some_iff.1 hr
  obtain rfl := ck_sound e2
  obtain ⟨d1, e3, hr⟩ := Option.bind_eq_some_iff.1 hr
  obtain rfl := ck_sound e3
  obtain ⟨n4, e4, hr⟩ := Option.bind_eq_some_iff.1 hr
  obtain rfl := (inferInstance : Ev (some vmax -? some vn +? some a -? 1) _ _).sound _ e4
  obtain ⟨t4, e5, hr⟩ := Option.bind_eq_some_iff.1 hr
  obtain rfl := ck_sound e5
  obtain ⟨d4, e6, hr⟩ := Option.bind_eq_some_iff.1 hr
  obtain rfl := ck_sound e6
  obtain ⟨s0, e7, hr⟩ := Option.bind_eq_some_iff.1 hr
  replace e7 := (inferInstance : Ev _ _ _).sound _ e7
  have fm : ∀ v, Int.fmod (vmax - v + a - 1) a - (a - 1) = vmax - v - a * up a vmax v := by
    intro v
    have := Int.mul_fdiv_add_fmod (vmax - v + a - 1) a
    unfold up
    omega
  have es : s0 = reach v0 vn a vmax (up a vmax v0 + up a vmax vn) := by
    rw [e7, fm, fm]
    change (2 * v0 + up a vmax v0 * a) * up a vmax v0 + _ + (2 * vn + up a vmax vn * a) * up a vmax vn + _ = _
    unfold reach gain
    ring
  clear e7
  split at hr
  · rename_i hd
    obtain ⟨q, e8, hr⟩ := Option.bind_eq_some_iff.1 hr
    obtain ⟨t, e9, hr⟩ := Option.bind_eq_some_iff.1 hr
    obtain ⟨x, hx⟩ : ∃ x, some ds -? some s0 +? 2 *? some vmax -? 1 = some x := by
      cases hx : some ds -? some s0 +? 2 *? some vmax -? 1 with
      | none => rw [hx] at e8; cases e8
      | some x => exact ⟨x, rfl⟩
    obtain ⟨y, hy⟩ : ∃ y, 2 *? some vmax = some y := by
      cases hy : 2 *? some vmax with
      | none => rw [hx, hy] at e8; cases e8
      | some x => exact ⟨x, rfl⟩
    rw [hx, hy] at e8
    have hx1 := sub_ok hx
    obtain rfl := (inferInstance : Ev (some ds -? some s0 +? 2 *? some vmax -? 1) _ _).sound _ hx
    obtain rfl := (inferInstance : Ev (2 *? some vmax) _ _).sound _ hy
    obtain ⟨q1, q2⟩ := div_le e8 (by omega) hx1.2
    replace e9 := (inferInstance : Ev _ _ _).sound _ e9
    rw [Int.tdiv_eq_ediv_of_nonneg (by omega)] at q2
    change t = up a vmax v0 + up a vmax vn + q at e9
    have hu := up_le h
    have ht : t < i64Max := by
      have : i64Max = 9223372036854775807 := rfl
      omega
    have o1 : (MultiRange.new : MultiRange Int).or t i64Max = some ⟨[(t, i64Max)]⟩ := by
      have : t ≤ i64Max := by omega
      simp [MultiRange.or, this, MultiRange.new, MultiRange.orBody, MultiRange.orJoin]
    rw [o1] at hr
    cases hr
    refine .inl ⟨rfl, ?_, ?_, fun T hT => ?_⟩
    · simp [Ordered]; omega
    · simp [AllNonempty]; omega
    · simp only [Contains, List.mem_singleton, exists_eq_left] at hT
      have q0 : 0 ≤ q := by rw [q2]; exact Int.ediv_nonneg (by omega) (by omega)
      have q3 : ds - s0 ≤ 2 * vmax * q := by
        have h1 := Int.emod_lt_of_pos (ds - s0 + 2 * vmax - 1) (show 0 < 2 * vmax by omega)
        have h2 := Int.mul_ediv_add_emod (ds - s0 + 2 * vmax - 1) (2 * vmax)
        rw [← q2] at h2
        omega
      refine ⟨by omega, ?_⟩
      have h4 := mul_le_mul_of_nonneg_left (show q ≤ T - (up a vmax v0 + up a vmax vn) by omega) (show 0 ≤ 2 * vmax by omega)
      unfold reach at es ⊢
      rw [mul_sub] at h4
      omega
  · cases hr
    refine .inr ⟨rfl, by omega⟩

theorem ds_le {ds v0 vn a : ℤ} {r : MultiRange ℤ} (hr : Checked.maxAccelerationCurve ds v0 vn a = some r) : |ds| ≤ bigT := by
  unfold Checked.maxAccelerationCurve at hr
  obtain ⟨_, -, hr⟩ := Option.bind_eq_some_iff.1 hr
  obtain ⟨_, -, hr⟩ := Option.bind_eq_some_iff.1 hr
  obtain ⟨_, -, hr⟩ := Option.bind_eq_some_iff.1 hr
  obtain ⟨c, e, -⟩ := Option.bind_eq_some_iff.1 hr
  unfold Checked.add at e
  obtain ⟨_, -, e⟩ := Option.bind_eq_some_iff.1 e
  obtain ⟨_, e, -⟩ := Option.bind_eq_some_iff.1 e
  unfold Checked.mul at e
  obtain ⟨_, -, e⟩ := Option.bind_eq_some_iff.1 e
  obtain ⟨_, e, -⟩ := Option.bind_eq_some_iff.1 e
  obtain ⟨_, -, e⟩ := Option.bind_eq_some_iff.1 e
  obtain ⟨w, e, -⟩ := Option.bind_eq_some_iff.1 e
  obtain ⟨x, e1, e⟩ := Option.bind_eq_some_iff.1 e
  obtain ⟨y, e2, e⟩ := Option.bind_eq_some_iff.1 e
  cases e1
  cases e2
  obtain ⟨-, h1, h2⟩ := ck_le e
  have : i64Max = 9223372036854775807 := rfl
  have : i64Min = -9223372036854775808 := rfl
  have : bigT = 4611686018427387904 := rfl
  rw [abs_le]
  push_cast at h1 h2
  omega

/-- One direction of `shortest_curve_length`. -/
theorem side_some {ds v0 vn a vmax : ℤ} {r : MultiRange ℤ} (h : Small v0 vn a vmax)
    (hr : Checked.sideLengths ds v0 vn a vmax = some r) :
    Ordered r.ranges ∧ AllNonempty r.ranges ∧ ∀ T, Contains r.ranges T → Side ds v0 vn a vmax T := by
  unfold Checked.sideLengths at hr
  obtain ⟨r1, e1, hr⟩ := Option.bind_eq_some_iff.1 hr
  rcases slc_some h e1 with ⟨h1, h2, h3, h4⟩ | ⟨h1, h2⟩
  · rw [if_neg (by simp [h1])] at hr
    cases hr
    exact ⟨h2, h3, fun T hT => .inl (h4 T hT)⟩
  · rw [if_pos h1] at hr
    have hb : (2 : ℤ) ^ 31 ≤ bigV := by norm_num
    obtain ⟨r', e, o, n, c⟩ := mac_spec (ds := ds) (v0 := v0) (vn := vn) (a := a) h.a_pos (h.h0.trans hb) (h.hn.trans hb) (ds_le hr)
    have := Checked.maxAccelerationCurve_le _ _ _ _ _ hr
    rw [e] at this
    cases this
    refine ⟨o, n, fun T hT => .inr ⟨h2, ?_⟩⟩
    have := (c T).1 hT
    exact ⟨this.1, this.2.2.1⟩

/-! ### What follows -/

theorem reach_eq {v0 vn a vmax T : ℤ} (ha : 0 < a) (h0 : v0 ≤ vmax) (hn : vn ≤ vmax) : reach v0 vn a vmax T = pdv v0 vn a T vmax := by
  unfold reach pdv
  rw [gain_eq ha h0, gain_eq ha hn]

theorem reach_mono {v0 vn a vmax T U : ℤ} (hv : 1 ≤ vmax) (h : T ≤ U) : reach v0 vn a vmax T ≤ reach v0 vn a vmax U := by
  have := mul_le_mul_of_nonneg_left h (show 0 ≤ 2 * vmax by omega)
  unfold reach
  omega

/-- The side of the limit that the velocities are on. -/
theorem Side.hi {ds v0 vn a vmax T : ℤ} (ha : 0 < a) (hv : 1 ≤ vmax) (h0 : v0 ≤ vmax) (hn : vn ≤ vmax)
    (hs : Side ds v0 vn a vmax T) :
    |v0 - vn| ≤ a * T ∧ HiOK v0 vn a T ds ∧ (rt a (vmax - v0) + rt a (vmax - vn) ≤ T → ds ≤ pdv v0 vn a T vmax) ∧
      (1 ≤ T ∨ v0 = vmax) := by
  unfold Side at hs
  rw [up_eq ha h0, up_eq ha hn] at hs
  rcases hs with ⟨p2, p3⟩ | ⟨p1, p2, p3⟩
  · rw [reach_eq ha h0 hn] at p3
    have b1 := (rt_bounds ha (vmax - v0)).2
    have b2 := (rt_bounds ha (vmax - vn)).2
    rw [abs_of_nonneg (by omega)] at b1 b2
    have n1 := rt_nonneg ha (vmax - v0)
    have n2 := rt_nonneg ha (vmax - vn)
    refine ⟨?_, ⟨vmax, h0, hn, p2, p3⟩, fun _ => p3, ?_⟩
    · have := mul_le_mul_of_nonneg_left (show rt a (vmax - v0) ≤ T by omega) ha.le
      have := mul_le_mul_of_nonneg_left (show rt a (vmax - vn) ≤ T by omega) ha.le
      rw [abs_le]; omega
    · by_contra hc
      push Not at hc
      have : rt a (vmax - v0) = 0 := by omega
      rw [this] at b1
      omega
  · have ht := tMin_pos (v0 := v0) (vn := vn) ha
    have p4 := p2
    rw [tMin_spec ha] at p2
    refine ⟨p2.2, hiOK_of_poly ha p2.2 p3, fun hr => ?_, .inl (by omega)⟩
    rw [← reach_eq ha h0 hn]
    exact p1.le.trans (reach_mono hv hr)

/-- The other side, when it has been left. -/
theorem Side.over {ds v0 vn a vmax T : ℤ} (ha : 0 < a) (hv : 1 ≤ vmax) (h0 : vmax < v0 ∨ vmax < vn) (hD : |v0 - vn| ≤ a * T)
    (hs : Side ds v0 vn a vmax T) : ds ≤ pdv v0 vn a T (max v0 vn) := by
  have hT : 0 ≤ T := by
    by_contra hc
    have := abs_nonneg (v0 - vn)
    nlinarith
  have fits : up a vmax v0 + up a vmax vn ≤ T := by
    have key : ∀ {x y}, vmax < x → y ≤ vmax → |x - y| ≤ a * T → up a vmax x + up a vmax y ≤ T := by
      intro x y hx hy h
      have h1 := up_nonpos ha hx.le
      have h2 : up a vmax y ≤ T := by
        rw [up_eq ha hy, rt_le_iff ha]
        rw [abs_of_nonneg (by omega)] at h ⊢
        omega
      omega
    rcases le_or_gt v0 vmax with c0 | c0
    · have := key (x := vn) (y := v0) (by omega) c0 (by rw [abs_sub_comm]; exact hD)
      omega
    · rcases le_or_gt vn vmax with cn | cn
      · exact key c0 cn hD
      · have := up_nonpos ha c0.le
        have := up_nonpos ha cn.le
        omega
  have hds : ds ≤ reach v0 vn a vmax T := by
    rcases hs with h | h
    · exact h.2
    · exact h.1.le.trans (reach_mono hv fits)
  refine hds.trans ?_
  have mid : ∀ {x y}, vmax < x → y ≤ vmax → |x - y| ≤ a * T → reach x y a vmax T ≤ pdv x y a T x := by
    intro x y hx hy h
    have e : reach x y a vmax T ≤ pdv x y a T vmax := by
      unfold reach pdv
      have h1 := gain_nonpos ha hx.le
      have h2 := gg_nonneg ha (show vmax - x ≤ 0 by omega)
      rw [gain_eq ha hy]
      omega
    refine e.trans (pdv_mono ha hx.le fun z h1 h2 => ?_)
    rw [flatN_comm]
    rw [abs_of_nonneg (by omega)] at h
    exact flatN_nonneg_mid ha (by omega) h2 h
  have both : ∀ {x y}, vmax < x → vmax < y → x ≤ y → |x - y| ≤ a * T → reach x y a vmax T ≤ pdv x y a T y := by
    intro x y hx hy hxy h
    have e : reach x y a vmax T ≤ pdv x y a T x := by
      unfold reach pdv
      have h1 := gain_nonpos ha hx.le
      have h2 := gain_nonpos ha hy.le
      have h3 := gg_nonneg ha (show x - y ≤ 0 by omega)
      have h4 := mul_le_mul_of_nonneg_right (show 2 * vmax ≤ 2 * x by omega) hT
      rw [sub_self, gg_zero ha]
      omega
    refine e.trans (pdv_mono ha hxy fun z h1 h2 => ?_)
    rw [abs_of_nonpos (by omega)] at h
    exact flatN_nonneg_mid ha h1 h2 (by omega)
  have comm : reach v0 vn a vmax T = reach vn v0 a vmax T := by unfold reach; ring
  have hD' : |vn - v0| ≤ a * T := by rw [abs_sub_comm]; exact hD
  rcases le_or_gt v0 vmax with c0 | c0
  · rw [max_eq_right (by omega), comm, pdv_comm]
    exact mid (by omega) c0 hD'
  · rcases le_or_gt vn vmax with cn | cn
    · rw [max_eq_left (by omega)]
      exact mid c0 cn hD
    · rcases le_total v0 vn with c | c
      · rw [max_eq_right c]
        exact both c0 cn c hD
      · rw [max_eq_left c, comm, pdv_comm]
        exact both cn c0 c hD'

/-- Everything `adjust_curve` needs, and the bounds of the velocity. -/
theorem both_sides {ds v0 vn a vmax T : ℤ} (ha : 0 < a) (hv : 1 ≤ vmax) (h0 : v0 ≤ vmax) (hn : vn ≤ vmax)
    (hs : Side ds v0 vn a vmax T) (hs' : Side (-ds) (-v0) (-vn) a vmax T) :
    1 ≤ T ∧ |v0 - vn| ≤ a * T ∧ HiOK v0 vn a T ds ∧ LoOK v0 vn a T ds ∧
      (rt a (vmax - v0) + rt a (vmax - vn) ≤ T → ds ≤ pdv v0 vn a T vmax) ∧
      (rt a (min (-vmax) (min v0 vn) - v0) + rt a (min (-vmax) (min v0 vn) - vn) ≤ T →
        pdv v0 vn a T (min (-vmax) (min v0 vn)) ≤ ds) := by
  obtain ⟨g1, g2, g3, g4⟩ := hs.hi ha hv h0 hn
  by_cases hc : -v0 ≤ vmax ∧ -vn ≤ vmax
  · obtain ⟨k1, k2, k3, k4⟩ := hs'.hi ha hv hc.1 hc.2
    refine ⟨by omega, g1, g2, loOK_of_neg ha k2, g3, ?_⟩
    rw [min_eq_left (show -vmax ≤ min v0 vn by omega)]
    intro hr
    have := k3 (by
      rw [show vmax - -v0 = -(-vmax - v0) by ring, show vmax - -vn = -(-vmax - vn) by ring, rt_neg, rt_neg]
      exact hr)
    have e := pdv_neg (v0 := v0) (vn := vn) (T := T) ha (-vmax)
    rw [neg_neg] at e
    omega
  · have hD : |(-v0) - (-vn)| ≤ a * T := by
      rw [show -v0 - -vn = -(v0 - vn) by ring, abs_neg]
      exact g1
    have k := hs'.over ha hv (by omega) hD
    have em : max (-v0) (-vn) = -min v0 vn := by omega
    rw [em, pdv_neg ha] at k
    have hT : 1 ≤ T := by
      rcases g4 with h | h
      · exact h
      · by_contra hcc
        have : a * T ≤ 0 := by nlinarith
        have := abs_nonneg (v0 - vn)
        have : v0 - vn = 0 := abs_eq_zero.1 (by omega)
        omega
    have hm : rt a (min v0 vn - v0) + rt a (min v0 vn - vn) ≤ T := by
      have hr := (rt_le_iff (d := v0 - vn) ha).2 g1
      rcases le_total v0 vn with c | c
      · rw [min_eq_left c, sub_self, rt_zero ha]
        omega
      · rw [min_eq_right c, sub_self, rt_zero ha, ← rt_neg, neg_sub]
        omega
    refine ⟨hT, g1, g2, ⟨min v0 vn, by omega, by omega, hm, by omega⟩, g3, ?_⟩
    rw [min_eq_right (show min v0 vn ≤ -vmax by omega)]
    intro _
    omega

/-- Motion with acceleration up to `a` and velocities from `lo` to `hi`. -/
structure Within (a lo hi v w : ℤ) (l : List ℤ) : Prop where
  endv : endVel v l = w
  acc : ∀ x ∈ l, |x| ≤ a
  vel : ∀ x ∈ vels v l, lo ≤ x ∧ x ≤ hi
  near : ∀ k, Inside.Near a v w (dist v l) (dist v (l.take k))

theorem accepted {ds v0 vn a vmax T : ℤ} (ha : 0 < a) (hv : 1 ≤ vmax) (h0 : v0 ≤ vmax) (hn : vn ≤ vmax)
    (hs : Side ds v0 vn a vmax T) (hs' : Side (-ds) (-v0) (-vn) a vmax T) {p : DistancePath} {segs : List AccSegment}
    (hp : IntegerCurve.adjustCurve T ds v0 vn a = some p) (hq : p.accSeq = some segs) :
    1 ≤ T ∧ ((expand segs).length : ℤ) = T ∧ |dist v0 (expand segs) - ds| ≤ 1 ∧
      Within a (min (-vmax) (min v0 vn)) vmax v0 vn (expand segs) := by
  obtain ⟨hT, d1, d2, d3, d4, d5⟩ := both_sides ha hv h0 hn hs hs'
  obtain ⟨vf, adj, e, hg, hd⟩ := adjust_ok ha hT d1 d2 d3
  rw [hp] at e
  cases e
  have l1 : min (-vmax) (min v0 vn) ≤ v0 := by omega
  have l2 : min (-vmax) (min v0 vn) ≤ vn := by omega
  have l3 : min (-vmax) (min v0 vn) ≤ vmax := by omega
  generalize min (-vmax) (min v0 vn) = lo at *
  have u1 := speed_hi ha h0 hn hg hd d4
  have u2 := speed_lo (V := lo) ha l1 l2 hg hd d5
  obtain ⟨vs, ve, ts, s1, s2, s3, s4, s5⟩ := geo_step (p := ⟨v0, vn, a, vf, T, adj⟩) ha hg
  simp only at s3 s4 s5
  have b : lo ≤ vs ∧ vs ≤ vmax ∧ lo ≤ ve ∧ ve ≤ vmax := by
    rcases lt_trichotomy adj 0 with h | h | h
    · have := s5 h; have := u1.1 h.le; have := u2.2 h; omega
    · have := s3 h; have := u1.1 h.le; have := u2.1 h.ge; omega
    · have := s4 h; have := u1.2 h; have := u2.1 h.le; omega
  have run := pathTicks_run (p := ⟨v0, vn, a, vf, T, adj⟩) (lo := lo) (hi := vmax) ha s2
    b.1 b.2.1 b.2.2.1 b.2.2.2 l1 h0 l2 hn
  have he : expand segs = pathTicks ⟨v0, vn, a, vf, T, adj⟩ vs ve ts := by
    by_cases h1 : T = 1
    · subst h1
      have hl : pathTicks ⟨v0, vn, a, vf, 1, adj⟩ vs ve ts = [vn - v0] := by
        have hlen := run.len
        have hend := run.endv
        match hl : pathTicks ⟨v0, vn, a, vf, 1, adj⟩ vs ve ts, hlen with
        | [x], _ =>
          rw [hl] at hend
          simp only [endVel] at hend
          congr 1; omega
      rw [hl]
      have ea : DistancePath.accSeq ⟨v0, vn, a, vf, 1, adj⟩ = IntegerCurve.pushI [] 1 (vn - v0) := by
        unfold DistancePath.accSeq cassert
        have : v0 - vn ≤ a := by rw [abs_le] at d1; omega
        simp [this]
      rw [ea] at hq
      have := pushI_some canonical_nil hq
      simpa [expand] using this.1
    · exact (accSeq_some ha (by simp only; omega) s1 s2 hq).1
  rw [he]
  refine ⟨hT, run.len, ?_, run.endv, run.acc, run.vel, fun k => ?_⟩
  swap
  · have := Inside.path_inside (p := ⟨v0, vn, a, vf, T, adj⟩) ha s2 (List.take_append_drop k _)
    rwa [List.take_append_drop] at this
  have := run.dst
  simp only at this
  rw [this]
  exact hd

/-! ### All axes -/

/-- The limits that are asserted, and the sizes of the types. -/
def Asserted (l : PathLimits) : Prop := Small l.v0 l.vn l.a l.vmax ∧ l.v0 ≤ l.vmax ∧ l.vn ≤ l.vmax

theorem common_some {ls : List PathLimits} (hl : ∀ l ∈ ls, Asserted l) : ∀ {r m : MultiRange ℤ}, Ordered r.ranges →
    AllNonempty r.ranges → Checked.commonLengths r ls = some m → Ordered m.ranges ∧ AllNonempty m.ranges ∧
      ∀ T, Contains m.ranges T → Contains r.ranges T ∧ ∀ l ∈ ls, Side l.ds l.v0 l.vn l.a l.vmax T ∧ Side (-l.ds) (-l.v0) (-l.vn) l.a l.vmax T := by
  induction ls with
  | nil => intro r m ho hn h; cases h; exact ⟨ho, hn, by simp⟩
  | cons l ls ih =>
    intro r m ho hn h
    obtain ⟨r1, e, h⟩ := Option.bind_eq_some_iff.1 h
    unfold Checked.shortestCurveLength at e
    obtain ⟨p, e1, e⟩ := Option.bind_eq_some_iff.1 e
    obtain ⟨d, e2, e⟩ := Option.bind_eq_some_iff.1 e
    obtain ⟨v, e3, e⟩ := Option.bind_eq_some_iff.1 e
    obtain ⟨w, e4, e⟩ := Option.bind_eq_some_iff.1 e
    obtain ⟨q, e5, e⟩ := Option.bind_eq_some_iff.1 e
    cases e
    obtain rfl := (inferInstance : Ev (neg (some l.ds)) _ _).sound _ e2
    obtain rfl := (inferInstance : Ev (neg (some l.v0)) _ _).sound _ e3
    obtain rfl := (inferInstance : Ev (neg (some l.vn)) _ _).sound _ e4
    have hs := (hl l (by simp)).1
    obtain ⟨o1, n1, c1⟩ := side_some hs e1
    obtain ⟨o2, n2, c2⟩ := side_some hs.neg e5
    have s := andRange_spec p q o1 o2
    have t := andRange_spec r (p.andRange q) ho s.2.1
    obtain ⟨k1, k2, k3⟩ := ih (fun x hx => hl x (by simp [hx])) t.2.1 (t.2.2 hn (s.2.2 n1 n2)) h
    refine ⟨k1, k2, fun T hT => ?_⟩
    have hc := (t.1 T).1 (k3 T hT).1
    have hd := (s.1 T).1 hc.2
    refine ⟨hc.1, fun x hx => ?_⟩
    rcases List.mem_cons.1 hx with rfl | hx
    · exact ⟨c1 T hd.1, c2 T hd.2⟩
    · exact (k3 T hT).2 x hx

/-- What `shortest_curve_sequences` returns. -/
theorem sequences_some {ls : List PathLimits} (hl : ∀ l ∈ ls, Asserted l) {segs : List (List AccSegment)}
    (h : Checked.shortestCurveSequences ls = some segs) :
    ∃ T : ℤ, List.Forall₂ (fun l s => 1 ≤ T ∧ ((expand s).length : ℤ) = T ∧ |dist l.v0 (expand s) - l.ds| ≤ 1 ∧
      Within l.a (min (-l.vmax) (min l.v0 l.vn)) l.vmax l.v0 l.vn (expand s)) ls segs := by
  unfold Checked.shortestCurveSequences at h
  obtain ⟨r, e1, h⟩ := Option.bind_eq_some_iff.1 h
  obtain ⟨m, e2, h⟩ := Option.bind_eq_some_iff.1 h
  obtain ⟨⟨t, u⟩, e3, h⟩ := Option.bind_eq_some_iff.1 h
  have hi : i64Min < i64Max := by norm_num [i64Min, i64Max]
  have o1 : (MultiRange.new : MultiRange Int).or i64Min i64Max
      = some (MultiRange.new.orBody i64Min i64Max) := by simp [MultiRange.or]; omega
  have s1 := orBody_spec (MultiRange.new : MultiRange Int) i64Min i64Max (by omega)
    (by simp [MultiRange.new, Ordered])
  rw [o1, Option.some.injEq] at e1
  rw [← e1] at e2
  obtain ⟨-, k2, k3⟩ := common_some hl s1.1 (s1.2.2 (by omega) (by simp [MultiRange.new, AllNonempty])) e2
  have ht : Contains m.ranges t := by
    unfold MultiRange.bounds at e3
    split at e3
    · rename_i f l hf _
      cases e3
      have hm := List.mem_of_mem_head? (by rw [hf]; rfl : f ∈ m.ranges.head?)
      exact ⟨f, hm, le_rfl, k2 f hm⟩
    · cases e3
  have hall := (k3 t ht).2
  refine ⟨t, ?_⟩
  have F := mapM_some_forall₂ h
  have G : ∀ {ls : List PathLimits} {segs : List (List AccSegment)}, (∀ l ∈ ls, Asserted l) →
      (∀ l ∈ ls, Side l.ds l.v0 l.vn l.a l.vmax t ∧ Side (-l.ds) (-l.v0) (-l.vn) l.a l.vmax t) →
      List.Forall₂ (fun l s => (do let path ← Checked.adjustCurve t l.ds l.v0 l.vn l.a; Checked.accSeq path) = some s) ls segs →
      List.Forall₂ (fun l s => 1 ≤ t ∧ ((expand s).length : ℤ) = t ∧ |dist l.v0 (expand s) - l.ds| ≤ 1 ∧
        Within l.a (min (-l.vmax) (min l.v0 l.vn)) l.vmax l.v0 l.vn (expand s)) ls segs := by
    intro ls segs h1 h2 h3
    induction h3 with
    | nil => exact .nil
    | @cons l s _ _ hx ht ih =>
      refine .cons ?_ (ih (fun l hl => h1 l (by simp [hl])) (fun l hl => h2 l (by simp [hl])))
      obtain ⟨p, e4, e5⟩ := Option.bind_eq_some_iff.1 hx
      obtain ⟨a1, a2, a3⟩ := h1 l (by simp)
      obtain ⟨b1, b2⟩ := h2 l (by simp)
      exact accepted a1.a_pos a1.v_pos a2 a3 b1 b2 (Checked.adjustCurve_le _ _ _ _ _ _ e4) (Checked.accSeq_le _ _ e5)
  exact G hl hall F

end StepperPaths.Checked.OneSide
