import Verif.Proof.IntegerCurve.Final

/-! The distance of the trapezoid, and upper bounds for arbitrary motions. -/

namespace StepperPaths.IntegerCurve

open Solve Spec MultiRange

theorem profileDist_congr {w w' : Int → Int} {n : Nat}
    (h : ∀ i : Int, 0 ≤ i → i ≤ n → w i = w' i) : profileDist w n = profileDist w' n := by
  induction n with
  | zero => rfl
  | succ n ih =>
    simp only [profileDist]
    rw [ih (fun i h1 h2 => h i h1 (by push_cast; omega)), h n (by omega) (by push_cast; omega),
      h (n + 1) (by omega) (by push_cast; omega)]

theorem profileDist_mono {w w' : Int → Int} {n : Nat}
    (h : ∀ i : Int, 0 ≤ i → i ≤ n → w i ≤ w' i) : profileDist w n ≤ profileDist w' n := by
  induction n with
  | zero => rfl
  | succ n ih =>
    simp only [profileDist]
    have := ih (fun i h1 h2 => h i h1 (by push_cast; omega))
    have := h n (by omega) (by push_cast; omega)
    have := h (n + 1) (by omega) (by push_cast; omega)
    omega

theorem profileDist_add (w : Int → Int) (m n : Nat) :
    profileDist w (m + n) = profileDist w m + profileDist (fun i => w (m + i)) n := by
  induction n with
  | zero => simp [profileDist]
  | succ n ih =>
    rw [← add_assoc]
    simp only [profileDist]
    rw [ih]
    push_cast
    rw [show ((m : Int) + ((n : Int) + 1)) = m + n + 1 by ring]
    ring

theorem profileDist_neg (w : Int → Int) (n : Nat) :
    profileDist (fun i => -w i) n = -profileDist w n := by
  induction n with
  | zero => rfl
  | succ n ih => simp only [profileDist]; rw [ih]; ring

theorem profileDist_rev (w : Int → Int) (n : Nat) :
    profileDist (fun i => w (n - i)) n = profileDist w n := by
  induction n with
  | zero => rfl
  | succ n ih =>
    have h1 := profileDist_add (fun i => w (((n + 1 : Nat) : Int) - i)) 1 n
    rw [Nat.add_comm 1 n] at h1
    rw [h1]
    have h2 : profileDist (fun i => w (((n + 1 : Nat) : Int) - (((1 : Nat) : Int) + i))) n
        = profileDist w n := by
      rw [← ih]
      apply profileDist_congr
      intro i _ _
      congr 1; push_cast; ring
    rw [h2]
    simp only [profileDist]
    push_cast
    simp only [sub_zero, zero_add, add_sub_cancel_right]
    ring

theorem profileDist_const (c : Int) (n : Nat) : profileDist (fun _ => c) n = 2 * c * n := by
  induction n with
  | zero => simp [profileDist]
  | succ n ih => simp only [profileDist]; rw [ih]; push_cast; ring

theorem ramp_up {a v x : Int} (ha : 0 < a) (h : v ≤ x) :
    profileDist (fun i => min (v + a * i) x) (rt a (x - v)).toNat
      = 2 * x * rt a (x - v) + gg a (x - v) := by
  have hb := rt_bounds ha (x - v)
  have hn := rt_nonneg ha (x - v)
  unfold gg
  rw [if_pos (by omega)]
  rw [abs_of_nonneg (by omega)] at hb
  have lin : ∀ n : Nat, a * n ≤ x - v →
      profileDist (fun i => min (v + a * i) x) n = (2 * v + a * n) * n := by
    intro n
    induction n with
    | zero => simp [profileDist]
    | succ n ih =>
      intro hle
      push_cast at hle
      rw [mul_add] at hle
      simp only [profileDist]
      rw [ih (by omega), min_eq_left (by omega), min_eq_left (by rw [mul_add]; omega)]
      push_cast; ring
  generalize rt a (x - v) = t at *
  rcases hn.lt_or_eq with h0 | h0
  · obtain ⟨n, rfl⟩ : ∃ n : Nat, t = n + 1 := ⟨(t - 1).toNat, by omega⟩
    have e : ((n : Int) + 1).toNat = n + 1 := by omega
    rw [mul_add] at hb
    rw [e]
    simp only [profileDist]
    rw [lin n (by omega), min_eq_left (by omega), min_eq_right (by rw [mul_add]; omega)]
    ring
  · subst h0
    simp at hb
    have : x = v := by omega
    subst this
    simp [profileDist]

theorem ramp_down {a v x : Int} (ha : 0 < a) (h : x ≤ v) :
    profileDist (fun i => max (v - a * i) x) (rt a (x - v)).toNat
      = 2 * x * rt a (x - v) + gg a (x - v) := by
  have := ramp_up (v := -v) (x := -x) ha (by omega)
  rw [show -x - -v = -(x - v) by ring, rt_neg, gg_neg ha] at this
  have e : profileDist (fun i => min (-v + a * i) (-x)) (rt a (x - v)).toNat
      = -profileDist (fun i => max (v - a * i) x) (rt a (x - v)).toNat := by
    rw [← profileDist_neg]
    apply profileDist_congr
    intro i _ _
    omega
  rw [e] at this
  linarith

theorem trapezoid_start {v0 vn a x T i : Int} (ha : 0 < a)
    (hr : rt a (x - v0) + rt a (x - vn) ≤ T) (h0 : 0 ≤ i) (h1 : i ≤ T - rt a (x - vn)) :
    trapezoid v0 vn a x T i = if v0 ≤ x then min (v0 + a * i) x else max (v0 - a * i) x := by
  have b1 := rt_bounds ha (x - v0)
  have b4 := rt_bounds ha (x - vn)
  have n1 := rt_nonneg ha (x - v0)
  have n4 := rt_nonneg ha (x - vn)
  have m1 := mul_le_mul_of_nonneg_left h1 ha.le
  have m2 := mul_le_mul_of_nonneg_left hr ha.le
  have m0 := mul_nonneg ha.le h0
  rw [mul_sub] at m1
  rw [mul_add] at m2
  have d1 := abs_le.1 b1.2
  have d4 := abs_le.1 b4.2
  unfold trapezoid
  rw [mul_sub]
  split <;> omega

theorem trapezoid_rev (v0 vn a x T i : Int) :
    trapezoid v0 vn a x T (T - i) = trapezoid vn v0 a x T i := by
  unfold trapezoid
  rw [show T - (T - i) = i by ring, max_comm (v0 - a * (T - i)), min_comm (v0 + a * (T - i))]

theorem trapezoid_ramp {v0 vn a x T : Int} (ha : 0 < a)
    (hr : rt a (x - v0) + rt a (x - vn) ≤ T) :
    profileDist (trapezoid v0 vn a x T) (rt a (x - v0)).toNat
      = 2 * x * rt a (x - v0) + gg a (x - v0) := by
  have n1 := rt_nonneg ha (x - v0)
  by_cases h : v0 ≤ x
  · rw [← ramp_up ha h]
    apply profileDist_congr
    intro i h1 h2
    rw [trapezoid_start ha hr h1 (by omega), if_pos h]
  · rw [← ramp_down ha (by omega)]
    apply profileDist_congr
    intro i h1 h2
    rw [trapezoid_start ha hr h1 (by omega), if_neg h]

/-- The distance of the trapezoid. -/
theorem trapezoid_dist {v0 vn a x T : Int} (ha : 0 < a)
    (hr : rt a (x - v0) + rt a (x - vn) ≤ T) :
    profileDist (trapezoid v0 vn a x T) T.toNat = pdv v0 vn a T x := by
  have n1 := rt_nonneg ha (x - v0)
  have n4 := rt_nonneg ha (x - vn)
  have hT : T.toNat = (rt a (x - v0)).toNat
      + ((T - rt a (x - v0) - rt a (x - vn)).toNat + (rt a (x - vn)).toNat) := by omega
  have r1 := trapezoid_ramp (T := T) ha hr
  have r4 := trapezoid_ramp (v0 := vn) (vn := v0) (x := x) (T := T) ha (by omega)
  rw [hT, profileDist_add, profileDist_add, r1]
  have e2 : profileDist (fun i => trapezoid v0 vn a x T ((rt a (x - v0)).toNat + i))
      (T - rt a (x - v0) - rt a (x - vn)).toNat
      = 2 * x * (T - rt a (x - v0) - rt a (x - vn)) := by
    rw [profileDist_congr (w' := fun _ => x), profileDist_const]
    · rw [Int.toNat_of_nonneg (by omega)]
    · intro i h1 h2
      have hi : rt a (x - v0) ≤ ((rt a (x - v0)).toNat : Int) + i := by omega
      rw [trapezoid_start ha hr (by omega) (by omega)]
      have b1 := (rt_bounds ha (x - v0)).2
      have m := mul_le_mul_of_nonneg_left hi ha.le
      rw [abs_le] at b1
      split <;> omega
  have e3 : profileDist (fun i => trapezoid v0 vn a x T ((rt a (x - v0)).toNat +
        (((T - rt a (x - v0) - rt a (x - vn)).toNat : Int) + i))) (rt a (x - vn)).toNat
      = 2 * x * rt a (x - vn) + gg a (x - vn) := by
    rw [← r4, ← profileDist_rev]
    apply profileDist_congr
    intro i h1 h2
    rw [← trapezoid_rev]
    congr 1
    omega
  rw [e2, e3]
  unfold pdv
  ring

/-! ### Arbitrary motions -/

theorem endVel_bound {a : Int} {l : List Int} (v : Int) (h : ∀ x ∈ l, |x| ≤ a) :
    |endVel v l - v| ≤ a * l.length := by
  induction l generalizing v with
  | nil => simp [endVel]
  | cons x l ih =>
    have h1 := ih (v + x) (fun y hy => h y (by simp [hy]))
    have h2 := h x (by simp)
    simp only [endVel, List.length_cons]
    push_cast
    rw [mul_add]
    rw [abs_le] at *
    omega

theorem dist_profile (v : Int) (l : List Int) :
    dist v l = profileDist (fun i => endVel v (l.take i.toNat)) l.length := by
  induction l generalizing v with
  | nil => rfl
  | cons x l ih =>
    rw [List.length_cons, Nat.add_comm, profileDist_add]
    simp only [dist]
    rw [ih]
    congr 1
    · simp [profileDist, endVel]
    · apply profileDist_congr
      intro i h1 h2
      rw [show (((1 : Nat) : Int) + i).toNat = i.toNat + 1 by omega]
      simp [endVel]

theorem vels_append (v : Int) (l k : List Int) :
    vels v (l ++ k) = vels v l ++ vels (endVel v l) k := by
  induction l generalizing v with
  | nil => rfl
  | cons x l ih => simp [vels, endVel, ih]

theorem endVel_mem (v : Int) (l : List Int) : endVel v l = v ∨ endVel v l ∈ vels v l := by
  induction l generalizing v with
  | nil => exact Or.inl rfl
  | cons x l ih =>
    right
    simp only [endVel, vels, List.mem_cons]
    rcases ih (v + x) with h | h
    · left; exact h
    · right; exact h

theorem _root_.StepperPaths.Spec.Motion.take_vel {a vmax v w : Int} {l : List Int} (h : Motion a vmax v w l)
    (hv : |v| ≤ vmax) (n : Nat) : |endVel v (l.take n)| ≤ vmax := by
  rcases endVel_mem v (l.take n) with e | e
  · rw [e]; exact hv
  · apply h.vel
    have : vels v l = vels v (l.take n) ++ vels (endVel v (l.take n)) (l.drop n) := by
      rw [← vels_append, List.take_append_drop]
    rw [this]
    exact List.mem_append_left _ e

/-- Long enough motions move at most the trapezoid with `vmax`. -/
theorem _root_.StepperPaths.Spec.Motion.dist_le {a vmax v w : Int} {l : List Int} (h : Motion a vmax v w l)
    (ha : 0 < a) (hv : |v| ≤ vmax)
    (hr : rt a (vmax - v) + rt a (vmax - w) ≤ l.length) :
    dist v l ≤ pdv v w a l.length vmax := by
  rw [← trapezoid_dist ha hr, dist_profile]
  simp only [Int.toNat_natCast]
  apply profileDist_mono
  intro i h1 h2
  have b1 := endVel_bound (a := a) v (l := l.take i.toNat)
    (fun x hx => h.acc x (List.mem_of_mem_take hx))
  have b2 := endVel_bound (a := a) (endVel v (l.take i.toNat)) (l := l.drop i.toNat)
    (fun x hx => h.acc x (List.mem_of_mem_drop hx))
  have e : endVel (endVel v (l.take i.toNat)) (l.drop i.toNat) = w := by
    rw [← endVel_append, List.take_append_drop]; exact h.endv
  have b3 := h.take_vel hv i.toNat
  rw [e] at b2
  simp only [List.length_take, List.length_drop] at b1 b2
  rw [show ((min i.toNat l.length : Nat) : Int) = i by omega] at b1
  rw [show ((l.length - i.toNat : Nat) : Int) = l.length - i by omega] at b2
  unfold trapezoid
  rw [abs_le] at *
  omega

/-- Without regard to the speed limit. -/
theorem dist_le_quad {a v w : Int} {l : List Int} (hacc : ∀ x ∈ l, |x| ≤ a)
    (he : endVel v l = w) :
    2 * a * dist v l ≤ a * a * l.length * l.length + 2 * a * (v + w) * l.length
      - (v - w) * (v - w) := by
  induction l generalizing v with
  | nil => simp [endVel] at he; subst he; simp [dist]
  | cons x l ih =>
    have h1 := ih (v := v + x) (fun y hy => hacc y (by simp [hy])) he
    have hx := abs_le.1 (hacc x (by simp))
    have hb := endVel_bound (v + x) (fun y hy => hacc y (List.mem_cons_of_mem x hy))
    have he' : endVel (v + x) l = w := he
    rw [he', abs_le] at hb
    simp only [dist, List.length_cons]
    push_cast
    generalize (l.length : Int) = n at *
    have k : 0 ≤ (a - x) * (2 * (a * n - (v + x - w)) + (a + x)) :=
      mul_nonneg (by omega) (by omega)
    nlinarith [k, h1]

/-- Inserting ticks of constant velocity. -/
theorem _root_.StepperPaths.Spec.Motion.insert {a vmax v w : Int} {l k : List Int} (h : Motion a vmax v w (l ++ k))
    (ha : 0 < a) (hv : |v| ≤ vmax) (n : Nat) :
    Motion a vmax v w (l ++ (List.replicate n 0 ++ k)) ∧
      dist v (l ++ (List.replicate n 0 ++ k)) = dist v (l ++ k) + 2 * endVel v l * n := by
  have e0 : endVel (endVel v l) (List.replicate n 0) = endVel v l := by
    rw [endVel_replicate]; ring
  have hl : |endVel v l| ≤ vmax := by
    have := h.take_vel hv l.length
    simpa using this
  refine ⟨⟨?_, ?_, ?_⟩, ?_⟩
  · rw [endVel_append, endVel_append, e0, ← endVel_append]; exact h.endv
  · intro x hx
    rcases List.mem_append.1 hx with hx | hx
    · exact h.acc x (by simp [hx])
    · rcases List.mem_append.1 hx with hx | hx
      · rw [List.eq_of_mem_replicate hx]; simp; omega
      · exact h.acc x (by simp [hx])
  · intro x hx
    rw [vels_append, vels_append, e0] at hx
    have hh := h.vel
    rw [vels_append] at hh
    rcases List.mem_append.1 hx with hx | hx
    · exact hh x (by simp [hx])
    · rcases List.mem_append.1 hx with hx | hx
      · have : x = endVel v l := by
          have hz : ∀ (n : Nat) (u : Int), ∀ x ∈ vels u (List.replicate n 0), x = u := by
            intro n
            induction n with
            | zero => intro u x hx; simp [vels] at hx
            | succ n ih =>
              intro u x hx
              rw [List.replicate_succ] at hx
              simp only [vels, add_zero, List.mem_cons] at hx
              rcases hx with rfl | hx
              · rfl
              · exact ih u x hx
          exact hz n _ x hx
        rw [this]; exact hl
      · exact hh x (by simp [hx])
  · rw [dist_append, dist_append, dist_append, dist_replicate, e0]
    ring

/-- A motion that covers the peak distance takes at least as long as the peak. -/
theorem _root_.StepperPaths.Spec.Motion.peak_time {a vmax v w : Int} {l : List Int} (h : Motion a vmax v w l)
    (ha : 0 < a) (hvm : 1 ≤ vmax) (hv : |v| ≤ vmax) (hw : |w| ≤ vmax) (hne : l ≠ [] ∨ v = 0)
    (hd : peakDist v w a vmax ≤ dist v l) :
    rt a (vmax - v) + rt a (vmax - w) ≤ l.length := by
  by_contra hc
  by_cases hpos : ∃ i : Nat, 0 < endVel v (l.take i)
  · obtain ⟨i, hi⟩ := hpos
    have hm : Motion a vmax v w (l.take i ++ l.drop i) := by
      rw [List.take_append_drop]; exact h
    obtain ⟨n, hn0, hn⟩ : ∃ n : Nat, 0 < n ∧ (l.length : Int) + n
        = rt a (vmax - v) + rt a (vmax - w) :=
      ⟨(rt a (vmax - v) + rt a (vmax - w) - l.length).toNat, by omega, by omega⟩
    obtain ⟨m1, m2⟩ := hm.insert ha hv n
    have hlen : ((l.take i ++ (List.replicate n 0 ++ l.drop i)).length : Int)
        = rt a (vmax - v) + rt a (vmax - w) := by
      rw [← hn]
      simp only [List.length_append, List.length_take, List.length_replicate, List.length_drop]
      omega
    have := m1.dist_le ha hv (by rw [hlen])
    rw [hlen, m2, List.take_append_drop] at this
    have hpk : pdv v w a (rt a (vmax - v) + rt a (vmax - w)) vmax = peakDist v w a vmax := rfl
    rw [hpk] at this
    have hg : 0 < endVel v (l.take i) * n := mul_pos hi (by omega)
    nlinarith
  · have hneg : ∀ i : Nat, endVel v (l.take i) ≤ 0 := by
      intro i; by_contra hi; exact hpos ⟨i, by omega⟩
    have hv0 : v ≤ 0 := by simpa [endVel] using hneg 0
    have hw0 : w ≤ 0 := by
      have := hneg l.length
      rw [List.take_length, h.endv] at this
      exact this
    have hle : dist v l ≤ v + w := by
      have hz : ∀ n : Nat, n ≤ l.length → profileDist (fun i => endVel v (l.take i.toNat)) n
          ≤ v + endVel v (l.take n) ∨ n = 0 := by
        intro n
        induction n with
        | zero => intro _; right; rfl
        | succ n ih =>
          intro hn
          left
          simp only [profileDist]
          rw [show ((n : Int) + 1).toNat = n + 1 by omega, show ((n : Int)).toNat = n by omega]
          rcases ih (by omega) with h | h
          · have := hneg n; omega
          · subst h; simp [profileDist, endVel]
      rw [dist_profile]
      rcases hz l.length le_rfl with h1 | h1
      · rw [List.take_length, h.endv] at h1; exact h1
      · have hl : l = [] := List.length_eq_zero_iff.1 h1
        subst hl
        have hvw : v = w := h.endv
        rcases hne with h2 | h2
        · exact absurd rfl h2
        · simp only [List.length_nil, profileDist]; omega
    have hp := peakDist_nonneg ha hv hw
    have z1 : v = 0 := by omega
    have z2 : w = 0 := by omega
    subst z1 z2
    have hb := rt_bounds ha (vmax - 0)
    have htp := rt_pos ha (d := vmax - 0) (by omega)
    unfold peakDist pdv gg at hd
    rw [if_pos (by omega)] at hd
    rw [abs_of_nonneg (by omega)] at hb
    generalize rt a (vmax - 0) = t at *
    have k1 : 0 ≤ vmax * (t - 1) := mul_nonneg (by omega) (by omega)
    have k2 : 0 ≤ (a * t - vmax) * (t - 1) := mul_nonneg (by omega) (by omega)
    nlinarith

theorem endVel_neg (v : Int) (l : List Int) : endVel (-v) (l.map (- ·)) = -endVel v l := by
  induction l generalizing v with
  | nil => rfl
  | cons x l ih => simp only [List.map_cons, endVel]; rw [← ih, neg_add]

theorem dist_neg (v : Int) (l : List Int) : dist (-v) (l.map (- ·)) = -dist v l := by
  induction l generalizing v with
  | nil => rfl
  | cons x l ih => simp only [List.map_cons, dist]; rw [← neg_add, ih]; ring

theorem vels_neg (v : Int) (l : List Int) : vels (-v) (l.map (- ·)) = (vels v l).map (- ·) := by
  induction l generalizing v with
  | nil => rfl
  | cons x l ih => simp only [List.map_cons, vels]; rw [← neg_add, ih]

theorem _root_.StepperPaths.Spec.Motion.neg {a vmax v w : Int} {l : List Int}
    (h : Motion a vmax v w l) : Motion a vmax (-v) (-w) (l.map (- ·)) where
  endv := by rw [endVel_neg, h.endv]
  acc := by
    intro x hx
    obtain ⟨y, hy, rfl⟩ := List.mem_map.1 hx
    rw [abs_neg]; exact h.acc y hy
  vel := by
    intro x hx
    rw [vels_neg] at hx
    obtain ⟨y, hy, rfl⟩ := List.mem_map.1 hx
    rw [abs_neg]; exact h.vel y hy

/-- One tick more than any motion is accepted, unless the gap is in the way. -/
theorem side_next {ds v0 vn a vmax : Int} {l : List Int} (h : Valid ds v0 vn a vmax)
    (hm : Motion a vmax v0 vn l) (hd : dist v0 l = ds) (hg : -(v0 + vn) ≤ a * l.length)
    (hne : l ≠ [] ∨ v0 = 0) (hl : (l.length : Int) + 1 < i64Max) :
    SideOK ds v0 vn a vmax (l.length + 1) := by
  have ha : 0 < a := h.a_pos
  have hv := h.v_pos
  refine ⟨hl, ?_⟩
  by_cases hp : peakDist v0 vn a vmax ≤ ds
  · left
    have ht := hm.peak_time ha hv h.h0 h.hn hne (by omega)
    have hdl := hm.dist_le ha h.h0 ht
    refine ⟨hp, by omega, ?_⟩
    rw [pdv_peak] at hdl ⊢
    have e : 2 * vmax * ((l.length : Int) + 1 - (rt a (vmax - v0) + rt a (vmax - vn)))
      = 2 * vmax * (l.length - (rt a (vmax - v0) + rt a (vmax - vn))) + 2 * vmax := by ring
    omega
  · right
    have hq := dist_le_quad hm.acc hm.endv
    have hb := endVel_bound v0 hm.acc
    rw [hm.endv] at hb
    rw [hd] at hq
    refine ⟨by omega, ?_, ?_, ?_⟩
    · rw [tMin_spec ha]
      refine ⟨by omega, ?_⟩
      rw [abs_sub_comm, mul_add]
      omega
    · unfold accPoly
      have : 0 ≤ a * (a * l.length + v0 + vn) := mul_nonneg ha.le (by omega)
      nlinarith
    · unfold accPoly
      have : 0 ≤ a * (a * l.length + v0 + vn) := mul_nonneg ha.le (by omega)
      have : 0 ≤ a * a := by positivity
      nlinarith

end StepperPaths.IntegerCurve
