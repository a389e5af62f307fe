import Verif.Proof.IntegerCurve.Final
import Mathlib.Tactic.Linarith

/-! How far a path leaves the interval between its ends. -/

namespace StepperPaths.IntegerCurve.Inside

open Solve Spec

/-! ### Ramps -/

theorem endVel_le {l : List Int} (h : ∀ x ∈ l, x ≤ 0) (v : Int) : endVel v l ≤ v := by
  induction l generalizing v with
  | nil => exact le_rfl
  | cons x l ih =>
    have := ih (fun y hy => h y (.tail _ hy)) (v + x)
    have := h x (.head _)
    simp only [endVel]
    omega

theorem le_endVel {l : List Int} (h : ∀ x ∈ l, 0 ≤ x) (v : Int) : v ≤ endVel v l := by
  induction l generalizing v with
  | nil => exact le_rfl
  | cons x l ih =>
    have := ih (fun y hy => h y (.tail _ hy)) (v + x)
    have := h x (.head _)
    simp only [endVel]
    omega

/-- All velocities have a sign. -/
theorem dist_nonneg {l : List Int} : ∀ {v : Int}, 0 ≤ v → (∀ x ∈ vels v l, 0 ≤ x) → 0 ≤ dist v l := by
  induction l with
  | nil => intros; exact le_rfl
  | cons x l ih =>
    intro v hv h
    have h1 := h (v + x) (.head _)
    have := ih h1 fun y hy => h y (.tail _ hy)
    simp only [dist]
    omega

theorem vels_of_rise {l : List Int} (h : ∀ x ∈ l, 0 ≤ x) : ∀ {v : Int}, 0 ≤ v → ∀ x ∈ vels v l, 0 ≤ x := by
  induction l with
  | nil => intro v _ x hx; cases hx
  | cons y l ih =>
    intro v hv x hx
    have h1 := h y (.head _)
    rcases List.mem_cons.1 hx with rfl | hx
    · omega
    · exact ih (fun z hz => h z (.tail _ hz)) (by omega) x hx

theorem vels_of_fall {l : List Int} (h : ∀ x ∈ l, x ≤ 0) : ∀ {v : Int}, 0 ≤ endVel v l → ∀ x ∈ vels v l, 0 ≤ x := by
  induction l with
  | nil => intro v _ x hx; cases hx
  | cons y l ih =>
    intro v hv x hx
    simp only [endVel] at hv
    have h2 := endVel_le (fun z hz => h z (.tail _ hz)) (v + y)
    rcases List.mem_cons.1 hx with rfl | hx
    · omega
    · exact ih (fun z hz => h z (.tail _ hz)) hv x hx

theorem dist_neg (v : Int) (l : List Int) : dist (-v) (l.map Neg.neg) = -dist v l := by
  induction l generalizing v with
  | nil => rfl
  | cons x l ih =>
    have := ih (v + x)
    rw [show -(v + x) = -v + -x by ring] at this
    simp only [List.map_cons, dist, this]
    ring

theorem endVel_neg (v : Int) (l : List Int) : endVel (-v) (l.map Neg.neg) = -endVel v l := by
  induction l generalizing v with
  | nil => rfl
  | cons x l ih =>
    have := ih (v + x)
    rw [show -(v + x) = -v + -x by ring] at this
    simp only [List.map_cons, endVel, this]

theorem rise_dist {l : List Int} (h : ∀ x ∈ l, 0 ≤ x) {v : Int} (hv : 0 ≤ v) : 0 ≤ dist v l :=
  dist_nonneg hv (vels_of_rise h hv)

theorem fall_dist {l : List Int} (h : ∀ x ∈ l, x ≤ 0) {v : Int} (hv : 0 ≤ endVel v l) : 0 ≤ dist v l :=
  dist_nonneg (hv.trans (endVel_le h v)) (vels_of_fall h hv)

theorem fall_dist' {l : List Int} (h : ∀ x ∈ l, x ≤ 0) {v : Int} (hv : v ≤ 0) : dist v l ≤ 0 := by
  have := rise_dist (l := l.map Neg.neg) (by
    intro x hx
    obtain ⟨y, hy, rfl⟩ := List.mem_map.1 hx
    have := h y hy
    omega) (v := -v) (by omega)
  rw [dist_neg] at this
  omega

theorem rise_dist' {l : List Int} (h : ∀ x ∈ l, 0 ≤ x) {v : Int} (hv : endVel v l ≤ 0) : dist v l ≤ 0 := by
  have := fall_dist (l := l.map Neg.neg) (by
    intro x hx
    obtain ⟨y, hy, rfl⟩ := List.mem_map.1 hx
    have := h y hy
    omega) (v := -v) (by rw [endVel_neg]; omega)
  rw [dist_neg] at this
  omega

/-- Positions are concave while the velocity falls. -/
theorem fall_min {l1 l2 : List Int} (h : ∀ x ∈ l1 ++ l2, x ≤ 0) (v : Int) :
    0 ≤ dist v l1 ∨ dist v (l1 ++ l2) ≤ dist v l1 := by
  rcases le_total 0 (endVel v l1) with hu | hu
  · exact .inl (fall_dist (fun x hx => h x (by simp [hx])) hu)
  · right
    rw [dist_append]
    have := fall_dist' (l := l2) (fun x hx => h x (by simp [hx])) hu
    omega

/-- Positions are convex while the velocity rises. -/
theorem rise_max {l1 l2 : List Int} (h : ∀ x ∈ l1 ++ l2, 0 ≤ x) (v : Int) :
    dist v l1 ≤ 0 ∨ dist v l1 ≤ dist v (l1 ++ l2) := by
  rcases le_total (endVel v l1) 0 with hu | hu
  · exact .inl (rise_dist' (fun x hx => h x (by simp [hx])) hu)
  · right
    rw [dist_append]
    have := rise_dist (l := l2) (fun x hx => h x (by simp [hx])) hu
    omega

theorem replicate_end (a v : Int) (n : ℕ) : endVel v (List.replicate n a) = v + n * a := by
  induction n generalizing v with
  | zero => simp [endVel]
  | succ n ih =>
    simp only [List.replicate_succ, endVel, ih]
    push_cast
    ring

theorem replicate_energy (a v : Int) (n : ℕ) : a * dist v (List.replicate n a) = (v + n * a) ^ 2 - v ^ 2 := by
  induction n generalizing v with
  | zero => simp [dist]
  | succ n ih =>
    simp only [List.replicate_succ, dist, mul_add, ih]
    push_cast
    ring


theorem prefix_replicate {l1 l2 : List Int} {n : ℕ} {a : Int} (h : l1 ++ l2 = List.replicate n a) :
    l1 = List.replicate l1.length a := by
  refine List.eq_replicate_iff.2 ⟨rfl, fun b hb => ?_⟩
  have : b ∈ List.replicate n a := by rw [← h]; simp [hb]
  exact List.eq_of_mem_replicate this

theorem upTicks_sign {a d : Int} (ha : 0 < a) (hd : 0 ≤ d) : ∀ x ∈ upTicks a d, 0 ≤ x := by
  have hb := rt_bounds ha d
  rw [abs_of_nonneg hd] at hb
  unfold upTicks
  simp only [if_pos hd]
  intro x hx
  split at hx
  · have := List.eq_of_mem_replicate hx
    omega
  · rcases List.mem_append.1 hx with hx | hx
    · have := List.eq_of_mem_replicate hx
      omega
    · rw [List.mem_singleton] at hx
      have : a * (rt a d - 1) = a * rt a d - a := by ring
      omega

theorem upTicks_end {a v d : Int} (ha : 0 < a) : endVel v (upTicks a d) = v + d :=
  (upTicks_run (lo := min v (v + d)) (hi := max v (v + d)) ha (by simp) (by simp) (by simp) (by simp)).endv

theorem downTicks_end {a v d : Int} (ha : 0 < a) : endVel (v + d) (downTicks a d) = v :=
  (downTicks_run (lo := min v (v + d)) (hi := max v (v + d)) ha (by simp) (by simp) (by simp) (by simp)).endv

theorem upTicks_neg {a : Int} (ha : 0 < a) (d : Int) : upTicks a (-d) = (upTicks a d).map Neg.neg := by
  unfold upTicks
  rw [rt_neg, abs_neg]
  rcases lt_trichotomy d 0 with h | rfl | h
  · have n1 : 0 ≤ -d := by omega
    have n2 : ¬0 ≤ d := by omega
    simp only [if_pos n1, if_neg n2]
    by_cases he : |d| = a * rt a d
    · simp [he]
    · simp only [if_neg he]
      simp
      try ring
  · simp [rt_zero ha]
  · have n1 : ¬0 ≤ -d := by omega
    have n2 : 0 ≤ d := by omega
    simp only [if_neg n1, if_pos n2]
    by_cases he : |d| = a * rt a d
    · simp [he]
    · simp only [if_neg he]
      simp
      try ring

theorem downTicks_eq {a : Int} (ha : 0 < a) (d : Int) : downTicks a d = (upTicks a d).reverse.map Neg.neg := by
  unfold upTicks downTicks
  rcases lt_trichotomy d 0 with h | rfl | h
  · have n1 : d ≤ 0 := by omega
    have n2 : ¬0 ≤ d := by omega
    simp only [if_pos n1, if_neg n2]
    by_cases he : |d| = a * rt a d
    · simp [he]
    · simp only [if_neg he]
      simp
      try ring
  · simp [rt_zero ha]
  · have n1 : ¬d ≤ 0 := by omega
    have n2 : 0 ≤ d := by omega
    simp only [if_neg n1, if_pos n2]
    by_cases he : |d| = a * rt a d
    · simp [he]
    · simp only [if_neg he]
      simp
      try ring

theorem downTicks_neg {a : Int} (ha : 0 < a) (d : Int) : downTicks a (-d) = (downTicks a d).map Neg.neg := by
  rw [downTicks_eq ha, downTicks_eq ha, upTicks_neg ha]
  simp [List.map_reverse]

theorem flatTicks_neg (tf ts δ : Int) : flatTicks tf ts (-δ) = (flatTicks tf ts δ).map Neg.neg := by
  unfold flatTicks
  split
  · simp
  · split <;> simp

/-- Played backwards. -/
theorem back (v : Int) (l : List Int) :
    endVel (endVel v l) (l.reverse.map Neg.neg) = v ∧ dist (endVel v l) (l.reverse.map Neg.neg) = dist v l := by
  induction l generalizing v with
  | nil => exact ⟨rfl, rfl⟩
  | cons x l ih =>
    obtain ⟨h1, h2⟩ := ih (v + x)
    simp only [endVel, dist, List.reverse_cons, List.map_append, List.map_cons, List.map_nil,
      endVel_append, dist_append, h1, h2]
    constructor <;> ring

/-- What an axis moving backwards still moves while it turns. -/
def turn (a v : Int) : Int := v ^ 2 + a * |v|

theorem up_turn {a v d : Int} (ha : 0 < a) (hv : v ≤ 0) (hd : 0 ≤ v + d) {l1 l2 : List Int}
    (h : l1 ++ l2 = upTicks a d) : -turn a v ≤ a * dist v l1 := by
  have hav : 0 ≤ a * |v| := mul_nonneg ha.le (abs_nonneg v)
  have rep : ∀ k : ℕ, -turn a v ≤ a * dist v (List.replicate k a) := by
    intro k
    rw [replicate_energy]
    have := sq_nonneg (v + k * a)
    unfold turn
    linarith
  have hend := upTicks_end (v := v) (d := d) ha
  have hx := upTicks_sign ha (show 0 ≤ d by omega)
  unfold upTicks at h hend hx
  simp only [if_pos (show 0 ≤ d by omega)] at h hend hx
  split at h
  · rw [prefix_replicate h]
    exact rep _
  · rename_i hne
    rw [if_neg hne] at hend hx
    rcases List.eq_nil_or_concat l2 with rfl | ⟨l2', y, rfl⟩
    · rw [List.append_nil] at h
      generalize (rt a d - 1).toNat = n at *
      generalize d - a * (rt a d - 1) = x at *
      have x0 := hx x (by simp)
      rw [endVel_append, replicate_end] at hend
      simp only [endVel] at hend
      rw [h, dist_append, replicate_end, mul_add, replicate_energy]
      simp only [dist, add_zero]
      unfold turn
      rw [abs_of_nonpos hv]
      have hu : v ≤ v + n * a := by
        have : 0 ≤ (n : Int) * a := by positivity
        omega
      generalize v + n * a = u at *
      nlinarith [sq_nonneg u, mul_nonneg ha.le (show 0 ≤ u - v by omega), mul_nonneg ha.le (show 0 ≤ u + x by omega)]
    · rw [List.concat_eq_append, ← List.append_assoc] at h
      have := List.append_inj_left' h (by simp)
      rw [prefix_replicate this]
      exact rep _

theorem down_turn {a v d : Int} (ha : 0 < a) (hv : v ≤ 0) (hd : 0 ≤ v + d) {l1 l2 : List Int}
    (h : l1 ++ l2 = downTicks a d) : -turn a v ≤ a * dist (endVel (v + d) l1) l2 := by
  have he := downTicks_end (v := v) (d := d) ha
  rw [← h, endVel_append] at he
  have hb := (back (endVel (v + d) l1) l2).2
  rw [he] at hb
  rw [← hb]
  refine up_turn ha hv hd (l2 := l1.reverse.map Neg.neg) ?_
  rw [← List.map_append, ← List.reverse_append, h, downTicks_eq ha, ← List.map_reverse]
  simp

theorem downTicks_sign {a d : Int} (ha : 0 < a) (hd : 0 ≤ d) : ∀ x ∈ downTicks a d, x ≤ 0 := by
  intro x hx
  rw [downTicks_eq ha] at hx
  obtain ⟨y, hy, rfl⟩ := List.mem_map.1 hx
  have := upTicks_sign ha hd y (List.mem_reverse.1 hy)
  omega

theorem upTicks_vel {a v d : Int} (ha : 0 < a) (h1 : 0 ≤ v) (h2 : 0 ≤ v + d) : ∀ x ∈ vels v (upTicks a d), 0 ≤ x :=
  fun x hx => ((upTicks_run (lo := 0) (hi := max v (v + d)) ha h1 (by simp) h2 (by simp)).vel x hx).1

theorem downTicks_vel {a v d : Int} (ha : 0 < a) (h1 : 0 ≤ v) (h2 : 0 ≤ v + d) : ∀ x ∈ vels (v + d) (downTicks a d), 0 ≤ x :=
  fun x hx => ((downTicks_run (lo := 0) (hi := max v (v + d)) ha h1 (by simp) h2 (by simp)).vel x hx).1

theorem split_dist {v : Int} {l1 l2 : List Int} (hv : 0 ≤ v) (h : ∀ x ∈ vels v (l1 ++ l2), 0 ≤ x) :
    0 ≤ dist v l1 ∧ 0 ≤ dist (endVel v l1) l2 ∧ 0 ≤ endVel v l1 := by
  induction l1 generalizing v with
  | nil => exact ⟨le_rfl, dist_nonneg hv h, hv⟩
  | cons x l ih =>
    have h1 := h (v + x) (.head _)
    obtain ⟨i1, i2, i3⟩ := ih h1 fun y hy => h y (.tail _ hy)
    exact ⟨by simp only [dist]; omega, i2, i3⟩

/-- Positions of a path that cruises forwards, seen from both ends. -/
theorem path_inside_pos {a v0 vn vs ve tf ts : Int} (ha : 0 < a) (h1 : 0 ≤ vs) (h2 : 0 ≤ ve)
    (hd : |ve - vs| ≤ 1) (h0 : ts = 0 → vs = ve) (hf : 0 ≤ tf) (hts : |ts| ≤ tf) {l1 l2 : List Int}
    (h : l1 ++ l2 = upTicks a (vs - v0) ++ flatTicks tf ts (ve - vs) ++ downTicks a (ve - vn)) :
    (-turn a v0 ≤ a * dist v0 l1 ∨ a * dist v0 (l1 ++ l2) - turn a v0 ≤ a * dist v0 l1) ∧
    (a * dist v0 l1 ≤ turn a vn ∨ a * dist v0 l1 ≤ a * dist v0 (l1 ++ l2) + turn a vn) := by
  have t0 : ∀ v, 0 ≤ turn a v := fun v => by
    unfold turn
    have := mul_nonneg ha.le (abs_nonneg v)
    positivity
  have ev : v0 + (vs - v0) = vs := by ring
  have en : vn + (ve - vn) = ve := by ring
  have eA := upTicks_end (v := v0) (d := vs - v0) ha
  have eB := downTicks_end (v := vn) (d := ve - vn) ha
  rw [ev] at eA
  rw [en] at eB
  have rF := flatTicks_run (lo := 0) (hi := max vs ve) ha hd h0 hf hts h1 (by simp) h2 (by simp)
  -- the first ramp
  have qA : ∀ x y, x ++ y = upTicks a (vs - v0) →
      -turn a v0 ≤ a * dist v0 x ∧ (a * dist v0 x ≤ 0 ∨ dist v0 x ≤ dist v0 (x ++ y)) := by
    intro x y e
    rcases le_total 0 v0 with hv | hv
    · have := split_dist hv (l1 := x) (l2 := y) (by rw [e]; exact upTicks_vel ha hv (by omega))
      constructor
      · have := mul_nonneg ha.le this.1
        have := t0 v0
        omega
      · right
        rw [dist_append]
        omega
    · refine ⟨up_turn ha hv (by omega) e, ?_⟩
      rcases rise_max (l1 := x) (l2 := y) (by rw [e]; exact upTicks_sign ha (by omega)) v0 with h | h
      · exact .inl (mul_nonpos_of_nonneg_of_nonpos ha.le h)
      · exact .inr h
  -- the last ramp
  have qB : ∀ x y, x ++ y = downTicks a (ve - vn) →
      -turn a vn ≤ a * dist (endVel ve x) y ∧ (0 ≤ dist ve x ∨ dist ve (x ++ y) ≤ dist ve x) := by
    intro x y e
    rcases le_total 0 vn with hv | hv
    · have := split_dist h2 (l1 := x) (l2 := y) (by
        rw [e]
        have := downTicks_vel (d := ve - vn) ha hv (by omega)
        rwa [en] at this)
      constructor
      · have := mul_nonneg ha.le this.2.1
        have := t0 vn
        omega
      · exact .inl this.1
    · refine ⟨?_, fall_min (l1 := x) (l2 := y) (by rw [e]; exact downTicks_sign ha (by omega)) ve⟩
      have := down_turn (v := vn) (d := ve - vn) ha hv (by omega) e
      rwa [en] at this
  have wA := qA (upTicks a (vs - v0)) [] (by simp)
  have wB := qB [] (downTicks a (ve - vn)) (by simp)
  simp only [endVel] at wB
  have wF := split_dist (l1 := flatTicks tf ts (ve - vs)) (l2 := []) h1 (by
    rw [List.append_nil]; exact fun x hx => (rF.vel x hx).1)
  have total : dist v0 (l1 ++ l2) = dist v0 (upTicks a (vs - v0)) + dist vs (flatTicks tf ts (ve - vs))
      + dist ve (downTicks a (ve - vn)) := by
    rw [h, dist_append, dist_append, endVel_append, eA, rF.endv]
  have mF := mul_nonneg ha.le wF.1
  have z0 := t0 v0
  have zn := t0 vn
  rw [total]
  simp only [mul_add]
  rcases List.append_eq_append_iff.1 h with ⟨c, hc, e2⟩ | ⟨c, hc, e2⟩
  · rcases List.append_eq_append_iff.1 hc.symm with ⟨c', hc', e3⟩ | ⟨c', hc', e3⟩
    · -- within the first ramp
      obtain ⟨i1, i2⟩ := qA l1 c' hc'.symm
      refine ⟨.inl i1, ?_⟩
      rcases i2 with i2 | i2
      · left; omega
      · right
        rw [← hc'] at i2
        have := mul_le_mul_of_nonneg_left i2 ha.le
        omega
    · -- within the flat part
      have f := split_dist (l1 := c') (l2 := c) h1 (by
        rw [← e3]; exact fun x hx => (rF.vel x hx).1)
      have e4 : dist vs (flatTicks tf ts (ve - vs)) = dist vs c' + dist (endVel vs c') c := by
        rw [e3, dist_append]
      have m1 := mul_nonneg ha.le f.1
      have m2 := mul_nonneg ha.le f.2.1
      rw [hc', dist_append, eA, e4]
      simp only [mul_add]
      exact ⟨.inl (by omega), .inr (by omega)⟩
  · -- within the last ramp
    obtain ⟨i1, i2⟩ := qB c l2 e2.symm
    have e4 : dist ve (downTicks a (ve - vn)) = dist ve c + dist (endVel ve c) l2 := by
      rw [e2, dist_append]
    rw [hc, dist_append, dist_append, endVel_append, eA, rF.endv]
    simp only [mul_add]
    constructor
    · rcases i2 with i2 | i2
      · left
        have := mul_nonneg ha.le i2
        omega
      · right
        rw [← e2] at i2
        have := mul_le_mul_of_nonneg_left i2 ha.le
        omega
    · right
      rw [e4, mul_add]
      omega


theorem turn_nonneg {a : Int} (ha : 0 < a) (v : Int) : 0 ≤ turn a v := by
  unfold turn
  have := mul_nonneg ha.le (abs_nonneg v)
  positivity

theorem turn_neg (a v : Int) : turn a (-v) = turn a v := by
  unfold turn
  rw [abs_neg, neg_sq]

/-- Every position of a path is between its ends or at most a turn away. -/
def Near (a v0 vn d p : Int) : Prop :=
  a * min 0 d - max (turn a v0) (turn a vn) ≤ a * p ∧ a * p ≤ a * max 0 d + max (turn a v0) (turn a vn)

theorem near_of {a v0 vn d p u w : Int} (ha : 0 < a) (hu : u ≤ max (turn a v0) (turn a vn)) (hw : w ≤ max (turn a v0) (turn a vn))
    (h1 : -u ≤ a * p ∨ a * d - u ≤ a * p) (h2 : a * p ≤ w ∨ a * p ≤ a * d + w) : Near a v0 vn d p := by
  have m1 := mul_le_mul_of_nonneg_left (min_le_left 0 d) ha.le
  have m2 := mul_le_mul_of_nonneg_left (min_le_right 0 d) ha.le
  have m3 := mul_le_mul_of_nonneg_left (le_max_left 0 d) ha.le
  have m4 := mul_le_mul_of_nonneg_left (le_max_right 0 d) ha.le
  unfold Near
  generalize max (turn a v0) (turn a vn) = m at *
  generalize a * min 0 d = x at *
  generalize a * max 0 d = y at *
  rw [mul_zero] at m1 m3
  omega

theorem path_inside {p : DistancePath} {vs ve ts : Int} (ha : 0 < p.amax) (hf : Fits p vs ve ts)
    {l1 l2 : List Int} (h : l1 ++ l2 = pathTicks p vs ve ts) :
    Near p.amax p.v0 p.vn (dist p.v0 (l1 ++ l2)) (dist p.v0 l1) := by
  obtain ⟨v0, vn, a, vf, T, adj⟩ := p
  simp only at ha ⊢
  have hr := hf.room
  have ht := hf.ts_le
  have hst := abs_le.1 hf.step
  simp only at hr ht
  unfold pathTicks at h
  simp only at h
  by_cases hs : 0 ≤ vs ∧ 0 ≤ ve
  · obtain ⟨i1, i2⟩ := path_inside_pos ha hs.1 hs.2 hf.step hf.same (by omega) ht h
    exact near_of ha (le_max_left _ _) (le_max_right _ _) i1 i2
  · have h' : l1.map Neg.neg ++ l2.map Neg.neg = upTicks a (-vs - -v0)
        ++ flatTicks (T - rt a (vs - v0) - rt a (ve - vn)) ts (-ve - -vs) ++ downTicks a (-ve - -vn) := by
      rw [← List.map_append, h, show -vs - -v0 = -(vs - v0) by ring, show -ve - -vs = -(ve - vs) by ring,
        show -ve - -vn = -(ve - vn) by ring, upTicks_neg ha, flatTicks_neg, downTicks_neg ha]
      simp only [List.map_append]
    obtain ⟨i1, i2⟩ := path_inside_pos (vs := -vs) (ve := -ve) ha (by omega) (by omega)
      (by rw [abs_le]; omega) (fun h => by rw [hf.same h]) (by omega) ht h'
    rw [← List.map_append, dist_neg, dist_neg, turn_neg, mul_neg, mul_neg] at i1
    rw [← List.map_append, dist_neg, dist_neg, turn_neg, mul_neg, mul_neg] at i2
    refine near_of (u := turn a vn) (w := turn a v0) ha (le_max_right _ _) (le_max_left _ _) ?_ ?_
    · omega
    · omega

/-- Every position of an accepted sequence. -/
theorem accepted_inside {ds v0 vn a vmax T : Int} (h : Valid ds v0 vn a vmax)
    (hs : SideOK ds v0 vn a vmax T) (hs' : SideOK (-ds) (-v0) (-vn) a vmax T) {p : DistancePath}
    {segs : List AccSegment} (hp : adjustCurve T ds v0 vn a = some p) (hq : p.accSeq = some segs)
    {l1 l2 : List Int} (hl : l1 ++ l2 = expand segs) :
    Near a v0 vn (dist v0 (l1 ++ l2)) (dist v0 l1) := by
  have ha : 0 < a := h.a_pos
  obtain ⟨hT, vf, adj, e, hg, hd⟩ := accepted_adjust h hs hs'
  by_cases h1 : T = 1
  · obtain ⟨-, p', d, l, e', -, -, -, -, -, -, len, -, -, hex, -⟩ := accepted h hs hs'
    rw [hp] at e'
    cases e'
    have := (hex segs hq).1
    rw [this] at hl
    have t0 := turn_nonneg ha v0
    have tn := turn_nonneg ha vn
    have hll : l1.length + l2.length = 1 := by
      have := congrArg List.length hl
      rw [List.length_append] at this
      omega
    rcases Nat.eq_zero_or_pos l1.length with h0 | h0
    · rw [List.length_eq_zero_iff.1 h0]
      refine near_of (u := turn a v0) (w := turn a v0) ha (le_max_left _ _) (le_max_left _ _) (.inl ?_) (.inl ?_)
      · simp only [dist]; omega
      · simp only [dist]; omega
    · rw [List.length_eq_zero_iff.1 (show l2.length = 0 by omega), List.append_nil]
      exact near_of (u := turn a v0) (w := turn a v0) ha (le_max_left _ _) (le_max_left _ _) (.inr (by omega)) (.inr (by omega))
  · rw [hp] at e
    cases e
    obtain ⟨vs, ve, ts, s1, s2, -⟩ := geo_step (p := ⟨v0, vn, a, vf, T, adj⟩) ha hg
    have := (accSeq_some ha (by simp only; omega) s1 s2 hq).1
    exact path_inside (p := ⟨v0, vn, a, vf, T, adj⟩) ha s2 (hl.trans this)

/-- From rest to rest an accepted sequence does not turn. -/
theorem accepted_direct {ds a vmax T : Int} (h : Valid ds 0 0 a vmax)
    (hs : SideOK ds 0 0 a vmax T) (hs' : SideOK (-ds) 0 0 a vmax T) {p : DistancePath}
    {segs : List AccSegment} (hp : adjustCurve T ds 0 0 a = some p) (hq : p.accSeq = some segs) :
    (∀ v ∈ vels 0 (expand segs), 0 ≤ v) ∨ (∀ v ∈ vels 0 (expand segs), v ≤ 0) := by
  have ha : 0 < a := h.a_pos
  obtain ⟨hT, vf, adj, e, hg, hd⟩ := accepted_adjust h hs (by simpa using hs')
  by_cases h1 : T = 1
  · obtain ⟨-, p', d, l, e', -, -, -, -, -, -, len, -, mot, hex, -⟩ := accepted h hs (by simpa using hs')
    rw [hp] at e'
    cases e'
    rw [(hex segs hq).1]
    have hend := mot.endv
    match l, len with
    | [x], _ =>
      simp only [endVel] at hend
      left
      intro v hv
      simp only [vels, List.mem_singleton] at hv
      omega
    | [], hlen => simp at hlen; omega
    | _ :: _ :: _, hlen => simp at hlen; omega
  · rw [hp] at e
    cases e
    obtain ⟨vs, ve, ts, s1, s2, -⟩ := geo_step (p := ⟨0, 0, a, vf, T, adj⟩) ha hg
    rw [(accSeq_some ha (by simp only; omega) s1 s2 hq).1]
    have hst := abs_le.1 s2.step
    by_cases hv : 0 ≤ vs ∧ 0 ≤ ve
    · left
      intro v hm
      exact ((pathTicks_run (p := ⟨0, 0, a, vf, T, adj⟩) (lo := 0) (hi := max vs ve) ha s2 hv.1 (by simp) hv.2 (by simp)
        le_rfl (by simp; omega) le_rfl (by simp; omega)).vel v hm).1
    · right
      intro v hm
      exact ((pathTicks_run (p := ⟨0, 0, a, vf, T, adj⟩) (lo := min vs ve) (hi := 0) ha s2 (by simp) (by omega) (by simp) (by omega)
        (by simp; omega) le_rfl (by simp; omega) le_rfl).vel v hm).2

end StepperPaths.IntegerCurve.Inside
