import Verif.Proof.IntegerCurve.Basic
import Verif.Proof.AccVector

/-! `acc_seq`: from a path to ticks. -/

namespace StepperPaths.IntegerCurve

open Spec

/-- Ticks from velocity `v` to velocity `v + d`, the rest step last. -/
def upTicks (a d : Int) : List Int :=
  let s := if 0 ≤ d then a else -a
  if |d| = a * rt a d then List.replicate (rt a d).toNat s
  else List.replicate (rt a d - 1).toNat s ++ [d - s * (rt a d - 1)]

/-- Ticks from velocity `v + d` to velocity `v`, the rest step first. -/
def downTicks (a d : Int) : List Int :=
  let s := if d ≤ 0 then a else -a
  if |d| = a * rt a d then List.replicate (rt a d).toNat s
  else [-d - s * (rt a d - 1)] ++ List.replicate (rt a d - 1).toNat s

/-- The flat part: `tf` ticks with a step of `δ` in between. -/
def flatTicks (tf ts δ : Int) : List Int :=
  if ts > 0 then List.replicate (ts - 1).toNat 0 ++ [δ] ++ List.replicate (tf - ts).toNat 0
  else if ts < 0 then
    List.replicate (tf + ts).toNat 0 ++ [δ] ++ List.replicate (-ts - 1).toNat 0
  else List.replicate tf.toNat 0

theorem rt_pos {a d : Int} (ha : 0 < a) (h : d ≠ 0) : 1 ≤ rt a d := by
  by_contra hc
  have := (rt_le_iff ha (d := d) (t := 0)).1 (by omega)
  have h2 := abs_pos.2 h
  omega

/-- Everything needed about a tick list: from `v` to `w` in `n` ticks moving `s`,
accelerations at most `a`, velocities between `lo` and `hi`. -/
structure Run (a v w n s lo hi : Int) (l : List Int) : Prop where
  len : (l.length : Int) = n
  endv : endVel v l = w
  dst : dist v l = s
  acc : ∀ x ∈ l, |x| ≤ a
  vel : ∀ x ∈ vels v l, lo ≤ x ∧ x ≤ hi

theorem Run.append {a v w u n m s r lo hi : Int} {l k : List Int}
    (h : Run a v w n s lo hi l) (g : Run a w u m r lo hi k) :
    Run a v u (n + m) (s + r) lo hi (l ++ k) where
  len := by simp [← h.len, ← g.len]
  endv := by rw [endVel_append, h.endv, g.endv]
  dst := by rw [dist_append, h.endv, h.dst, g.dst]
  acc := by
    intro x hx
    rcases List.mem_append.1 hx with hx | hx
    · exact h.acc x hx
    · exact g.acc x hx
  vel := by
    intro x hx
    rw [vels_append, h.endv] at hx
    rcases List.mem_append.1 hx with hx | hx
    · exact h.vel x hx
    · exact g.vel x hx

theorem Run.single {a v w lo hi : Int} (h : |w - v| ≤ a) (h1 : lo ≤ w) (h2 : w ≤ hi) :
    Run a v w 1 (v + w) lo hi [w - v] where
  len := rfl
  endv := by simp [endVel]
  dst := by simp [dist]
  acc := by simpa using h
  vel := by simp [vels, h1, h2]

theorem Run.replicate {a v s lo hi n : Int} (h : |s| ≤ a) (hn : 0 ≤ n) (hv1 : lo ≤ v) (hv2 : v ≤ hi)
    (h1 : lo ≤ v + s * n) (h2 : v + s * n ≤ hi) :
    Run a v (v + s * n) n ((2 * v + s * n) * n) lo hi (List.replicate n.toNat s) where
  len := by simp [hn]
  endv := by rw [endVel_replicate, Int.toNat_of_nonneg hn]
  dst := by rw [dist_replicate, Int.toNat_of_nonneg hn]
  acc := by
    intro x hx
    rw [(List.mem_replicate.1 hx).2]; exact h
  vel := by
    intro x hx
    obtain ⟨i, hi', rfl⟩ := mem_vels_replicate hx
    have hi2 : (i : Int) + 1 ≤ n := by omega
    have hi3 : 0 ≤ (i : Int) := by omega
    rcases le_total 0 s with hs | hs
    · constructor <;> nlinarith
    · constructor <;> nlinarith

theorem Run.zero {a v lo hi n : Int} (ha : 0 ≤ a) (hn : 0 ≤ n) (hv1 : lo ≤ v) (hv2 : v ≤ hi) :
    Run a v v n (2 * v * n) lo hi (List.replicate n.toNat 0) := by
  have := Run.replicate (a := a) (v := v) (s := 0) (n := n) (by simpa) hn hv1 hv2 (by simpa) (by simpa)
  simpa using this

theorem Run.congr {a v w n s lo hi w' n' s' : Int} {l : List Int} (h : Run a v w n s lo hi l)
    (hw : w = w') (hn : n = n') (hs : s = s') : Run a v w' n' s' lo hi l := by
  subst hw hn hs; exact h

theorem upTicks_run {a v d lo hi : Int} (ha : 0 < a) (h1 : lo ≤ v) (h2 : v ≤ hi)
    (h3 : lo ≤ v + d) (h4 : v + d ≤ hi) :
    Run a v (v + d) (rt a d) (2 * (v + d) * rt a d + gg a d) lo hi (upTicks a d) := by
  have hb := rt_bounds ha d
  have hn := rt_nonneg ha d
  unfold upTicks gg
  generalize rt a d = t at *
  by_cases hd : 0 ≤ d
  · rw [abs_of_nonneg hd] at hb
    simp only [if_pos hd, abs_of_nonneg hd]
    by_cases he : d = a * t
    · rw [if_pos he]
      refine (Run.replicate (by rw [abs_of_pos ha]) hn h1 h2 (by omega) (by omega)).congr ?_ rfl ?_
      · rw [he]
      · rw [he]; ring
    · rw [if_neg he]
      have ht : 1 ≤ t := by
        by_contra hc
        have : t = 0 := by omega
        subst this; simp at hb he; omega
      have hm : a * (t - 1) = a * t - a := by ring
      have hm0 : 0 ≤ a * (t - 1) := mul_nonneg ha.le (by omega)
      have r1 := Run.replicate (a := a) (v := v) (s := a) (n := t - 1) (lo := lo) (hi := hi)
        (by rw [abs_of_pos ha]) (by omega) h1 h2 (by omega) (by omega)
      have r2 := Run.single (a := a) (v := v + a * (t - 1)) (w := v + d) (lo := lo) (hi := hi)
        (by rw [abs_le]; omega) h3 h4
      rw [show v + d - (v + a * (t - 1)) = d - a * (t - 1) by ring] at r2
      exact (r1.append r2).congr rfl (by ring) (by ring)
  · have hd' : d ≤ 0 := by omega
    rw [abs_of_nonpos hd'] at hb
    simp only [if_neg hd, abs_of_nonpos hd']
    by_cases he : -d = a * t
    · rw [if_pos he]
      have hs : v + -a * t = v + d := by linarith
      refine (Run.replicate (by rw [abs_neg, abs_of_pos ha]) hn h1 h2
        (by omega) (by omega)).congr hs rfl ?_
      rw [show d = -(a * t) by omega]; ring
    · rw [if_neg he]
      have ht : 1 ≤ t := by
        by_contra hc
        have : t = 0 := by omega
        subst this; simp at hb he; omega
      have hm : -a * (t - 1) = -(a * t) + a := by ring
      have hm0 : 0 ≤ a * (t - 1) := mul_nonneg ha.le (by omega)
      have hm1 : a * (t - 1) = a * t - a := by ring
      have r1 := Run.replicate (a := a) (v := v) (s := -a) (n := t - 1) (lo := lo) (hi := hi)
        (by rw [abs_neg, abs_of_pos ha]) (by omega) h1 h2 (by omega) (by omega)
      have r2 := Run.single (a := a) (v := v + -a * (t - 1)) (w := v + d) (lo := lo) (hi := hi)
        (by rw [abs_le]; omega) h3 h4
      rw [show v + d - (v + -a * (t - 1)) = d - -a * (t - 1) by ring] at r2
      exact (r1.append r2).congr rfl (by ring) (by ring)

theorem downTicks_run {a v d lo hi : Int} (ha : 0 < a) (h1 : lo ≤ v) (h2 : v ≤ hi)
    (h3 : lo ≤ v + d) (h4 : v + d ≤ hi) :
    Run a (v + d) v (rt a d) (2 * (v + d) * rt a d + gg a d) lo hi (downTicks a d) := by
  have hb := rt_bounds ha d
  have hn := rt_nonneg ha d
  have hz := rt_zero ha
  unfold downTicks gg
  rcases eq_or_ne d 0 with rfl | hd0
  · simp only [hz, abs_zero, mul_zero, if_true]
    exact ⟨rfl, by simp [endVel], by simp [dist], by simp, by simp [vels]⟩
  clear hz
  generalize rt a d = t at *
  by_cases hd : 0 ≤ d
  · rw [abs_of_nonneg hd] at hb
    simp only [if_pos hd, if_neg (show ¬ d ≤ 0 by omega), abs_of_nonneg hd]
    by_cases he : d = a * t
    · rw [if_pos he]
      have hs : v + d + -a * t = v := by linarith
      refine (Run.replicate (by rw [abs_neg, abs_of_pos ha]) hn h3 h4
        (by omega) (by omega)).congr hs rfl ?_
      rw [he]; ring
    · rw [if_neg he]
      have ht : 1 ≤ t := by
        by_contra hc
        have : t = 0 := by omega
        subst this; simp at hb he; omega
      have hm : a * (t - 1) = a * t - a := by ring
      have hm2 : -a * (t - 1) = -(a * t) + a := by ring
      have hm0 : 0 ≤ a * (t - 1) := mul_nonneg ha.le (by omega)
      have r1 := Run.replicate (a := a) (v := v + a * (t - 1)) (s := -a) (n := t - 1) (lo := lo)
        (hi := hi) (by rw [abs_neg, abs_of_pos ha]) (by omega) (by omega) (by omega)
        (by omega) (by omega)
      have r2 := Run.single (a := a) (v := v + d) (w := v + a * (t - 1)) (lo := lo) (hi := hi)
        (by rw [abs_le]; omega) (by omega) (by omega)
      rw [show v + a * (t - 1) - (v + d) = -d - -a * (t - 1) by ring] at r2
      exact (r2.append r1).congr (by ring) (by ring) (by ring)
  · have hd' : d ≤ 0 := by omega
    rw [abs_of_nonpos hd'] at hb
    simp only [if_neg hd, if_pos hd', abs_of_nonpos hd']
    by_cases he : -d = a * t
    · rw [if_pos he]
      have hs : v + d + a * t = v := by linarith
      refine (Run.replicate (by rw [abs_of_pos ha]) hn h3 h4
        (by omega) (by omega)).congr hs rfl ?_
      rw [show d = -(a * t) by omega]; ring
    · rw [if_neg he]
      have ht : 1 ≤ t := by
        by_contra hc
        have : t = 0 := by omega
        subst this; simp at hb he; omega
      have hm : -a * (t - 1) = -(a * t) + a := by ring
      have hm0 : 0 ≤ a * (t - 1) := mul_nonneg ha.le (by omega)
      have hm1 : a * (t - 1) = a * t - a := by ring
      have r1 := Run.replicate (a := a) (v := v - a * (t - 1)) (s := a) (n := t - 1) (lo := lo)
        (hi := hi) (by rw [abs_of_pos ha]) (by omega) (by omega) (by omega) (by omega) (by omega)
      have r2 := Run.single (a := a) (v := v + d) (w := v - a * (t - 1)) (lo := lo) (hi := hi)
        (by rw [abs_le]; omega) (by omega) (by omega)
      rw [show v - a * (t - 1) - (v + d) = -d - a * (t - 1) by ring] at r2
      exact (r2.append r1).congr (by ring) (by ring) (by ring)

/-- Distance of the flat part. -/
def flatDist (vs ve tf ts : Int) : Int :=
  if ts > 0 then 2 * vs * (ts - 1) + (vs + ve) + 2 * ve * (tf - ts)
  else if ts < 0 then 2 * vs * (tf + ts) + (vs + ve) + 2 * ve * (-ts - 1)
  else 2 * vs * tf

theorem flatTicks_run {a vs ve tf ts lo hi : Int} (ha : 0 < a) (hd : |ve - vs| ≤ 1)
    (h0 : ts = 0 → vs = ve) (hf : 0 ≤ tf) (hts : |ts| ≤ tf)
    (h1 : lo ≤ vs) (h2 : vs ≤ hi) (h3 : lo ≤ ve) (h4 : ve ≤ hi) :
    Run a vs ve tf (flatDist vs ve tf ts) lo hi (flatTicks tf ts (ve - vs)) := by
  unfold flatTicks flatDist
  rw [abs_le] at hts
  rcases lt_trichotomy ts 0 with h | h | h
  · rw [if_neg (by omega), if_pos h, if_neg (by omega), if_pos h]
    exact (((Run.zero ha.le (show 0 ≤ tf + ts by omega) h1 h2).append
      (Run.single (by omega) h3 h4)).append
      (Run.zero ha.le (show 0 ≤ -ts - 1 by omega) h3 h4)).congr rfl (by ring) (by ring)
  · subst h
    have := h0 rfl
    subst this
    simp only [lt_irrefl, if_false]
    exact Run.zero ha.le hf h1 h2
  · rw [if_pos h, if_pos h]
    exact (((Run.zero ha.le (show 0 ≤ ts - 1 by omega) h1 h2).append
      (Run.single (by omega) h3 h4)).append
      (Run.zero ha.le (show 0 ≤ tf - ts by omega) h3 h4)).congr rfl (by ring) (by ring)

/-- The ticks `acc_seq` encodes, for paths of at least two ticks. -/
def pathTicks (p : DistancePath) (vs ve ts : Int) : List Int :=
  upTicks p.amax (vs - p.v0) ++
    flatTicks (p.tTotal - rt p.amax (vs - p.v0) - rt p.amax (ve - p.vn)) ts (ve - vs) ++
    downTicks p.amax (ve - p.vn)

/-- Conditions under which the chosen step fits. -/
structure Fits (p : DistancePath) (vs ve ts : Int) : Prop where
  step : |ve - vs| ≤ 1
  same : ts = 0 → vs = ve
  room : rt p.amax (vs - p.v0) + rt p.amax (ve - p.vn) ≤ p.tTotal
  ts_le : |ts| ≤ p.tTotal - rt p.amax (vs - p.v0) - rt p.amax (ve - p.vn)
  adj_le : p.tAdjust ≤ p.tTotal - rt p.amax (vs - p.v0) - rt p.amax (ve - p.vn)
  dist_eq : 2 * vs * rt p.amax (vs - p.v0) + gg p.amax (vs - p.v0)
    + flatDist vs ve (p.tTotal - rt p.amax (vs - p.v0) - rt p.amax (ve - p.vn)) ts
    + (2 * ve * rt p.amax (ve - p.vn) + gg p.amax (ve - p.vn))
    = pdv p.v0 p.vn p.amax p.tTotal p.vflat + 2 * p.tAdjust

theorem pathTicks_run {p : DistancePath} {vs ve ts lo hi : Int} (ha : 0 < p.amax)
    (hf : Fits p vs ve ts) (h1 : lo ≤ vs) (h2 : vs ≤ hi) (h3 : lo ≤ ve) (h4 : ve ≤ hi)
    (h5 : lo ≤ p.v0) (h6 : p.v0 ≤ hi) (h7 : lo ≤ p.vn) (h8 : p.vn ≤ hi) :
    Run p.amax p.v0 p.vn p.tTotal
      (pdv p.v0 p.vn p.amax p.tTotal p.vflat + 2 * p.tAdjust) lo hi (pathTicks p vs ve ts) := by
  have e1 : p.v0 + (vs - p.v0) = vs := by ring
  have e2 : p.vn + (ve - p.vn) = ve := by ring
  have r1 := upTicks_run (d := vs - p.v0) (v := p.v0) (lo := lo) (hi := hi) ha h5 h6
    (by omega) (by omega)
  have r3 := downTicks_run (d := ve - p.vn) (v := p.vn) (lo := lo) (hi := hi) ha h7 h8
    (by omega) (by omega)
  rw [e1] at r1
  rw [e2] at r3
  have r2 := flatTicks_run (a := p.amax) (lo := lo) (hi := hi) ha hf.step hf.same
    (by have := hf.room; omega) hf.ts_le h1 h2 h3 h4
  refine ((r1.append r2).append r3).congr rfl (by ring) ?_
  rw [← hf.dist_eq]

/-! ### The pushes -/

theorem toI16_some {x : Int} (h : |x| ≤ 32767) : toI16 x = some x := by
  rw [abs_le] at h
  unfold toI16
  rw [if_pos (by omega)]

theorem pushI_ok {s : List AccSegment} {t a : Int} (hc : Canonical s) (ht : 0 ≤ t)
    (hlen : ((expand s).length : Int) + t ≤ 65535) (ha : |a| ≤ 32767) :
    ∃ s', pushI s t a = some s' ∧ expand s' = expand s ++ List.replicate t.toNat a ∧
      Canonical s' := by
  have hp : accPush s t.toNat a ≠ none := by
    rw [Ne, accPush_eq_none]
    rintro ⟨_, seg, hl, _, h⟩
    obtain ⟨init, rfl⟩ : ∃ init, s = init ++ [seg] := by
      rw [List.getLast?_eq_some_iff] at hl
      exact hl
    rw [expand_append, List.length_append] at hlen
    simp only [expand, List.flatMap_cons, List.flatMap_nil, List.append_nil,
      List.length_replicate] at hlen
    push_cast at hlen
    have h0 : 0 ≤ ((List.flatMap (fun s => List.replicate s.interval s.acc) init).length : Int) := by
      positivity
    omega
  cases h : accPush s t.toNat a with
  | none => exact absurd h hp
  | some s' =>
    refine ⟨s', ?_, accPush_expand h, accPush_canonical (by omega) hc h⟩
    unfold pushI
    rw [toU16_some ht (by have : (0:Int) ≤ (expand s).length := by positivity
                          omega), toI16_some ha]
    exact h

theorem canonical_nil : Canonical [] := ⟨by simp, by simp⟩

/-- Pushing a list of `(ticks, acceleration)` pairs. -/
def pushAll (s : List AccSegment) : List (Int × Int) → Option (List AccSegment)
  | [] => some s
  | x :: xs => (pushI s x.1 x.2).bind (fun s => pushAll s xs)

theorem pushAll_append (s : List AccSegment) (xs ys : List (Int × Int)) :
    pushAll s (xs ++ ys) = (pushAll s xs).bind (fun s => pushAll s ys) := by
  induction xs generalizing s with
  | nil => rfl
  | cons x xs ih =>
    simp only [List.cons_append, pushAll, Option.bind_assoc]
    congr 1; funext s; exact ih s

/-- The ticks of a list of pushes. -/
def pushTicks (xs : List (Int × Int)) : List Int :=
  xs.flatMap (fun x => List.replicate x.1.toNat x.2)

theorem pushTicks_append (xs ys : List (Int × Int)) :
    pushTicks (xs ++ ys) = pushTicks xs ++ pushTicks ys := by simp [pushTicks]

theorem pushAll_ok (s : List AccSegment) (xs : List (Int × Int)) (hc : Canonical s)
    (h0 : ∀ x ∈ xs, 0 ≤ x.1 ∧ |x.2| ≤ 32767)
    (hlen : ((expand s).length : Int) + (pushTicks xs).length ≤ 65535) :
    ∃ s', pushAll s xs = some s' ∧ expand s' = expand s ++ pushTicks xs ∧ Canonical s' := by
  induction xs generalizing s with
  | nil => exact ⟨s, rfl, by simp [pushTicks], hc⟩
  | cons x xs ih =>
    obtain ⟨h1, h2⟩ := h0 x (by simp)
    have hp : pushTicks (x :: xs) = List.replicate x.1.toNat x.2 ++ pushTicks xs := by
      simp [pushTicks]
    rw [hp, List.length_append, List.length_replicate] at hlen
    push_cast at hlen
    rw [Int.toNat_of_nonneg h1] at hlen
    have hl0 : (0 : Int) ≤ (pushTicks xs).length := by positivity
    obtain ⟨s1, e1, e2, e3⟩ := pushI_ok hc h1 (by omega) h2
    have hl1 : ((expand s1).length : Int) = (expand s).length + x.1 := by
      rw [e2, List.length_append, List.length_replicate]; push_cast; omega
    obtain ⟨s2, g1, g2, g3⟩ := ih s1 e3 (fun y hy => h0 y (by simp [hy])) (by omega)
    refine ⟨s2, ?_, ?_, g3⟩
    · simp [pushAll, e1, g1]
    · rw [g2, e2, hp, List.append_assoc]

/-- The pushes of the first ramp. -/
def upPush (a d : Int) : List (Int × Int) :=
  let s := if 0 ≤ d then a else -a
  if |d| = a * rt a d then [(rt a d, s)]
  else [(rt a d - 1, s), (1, d - s * (rt a d - 1))]

def downPush (a d : Int) : List (Int × Int) :=
  let s := if d ≤ 0 then a else -a
  if |d| = a * rt a d then [(rt a d, s)]
  else [(1, -d - s * (rt a d - 1)), (rt a d - 1, s)]

def flatPush (tf ts δ : Int) : List (Int × Int) :=
  if ts > 0 then [(ts - 1, 0), (1, δ), (tf - ts, 0)]
  else if ts < 0 then [(tf + ts, 0), (1, δ), (-ts - 1, 0)]
  else [(tf, 0)]

theorem upPush_ticks (a d : Int) : pushTicks (upPush a d) = upTicks a d := by
  unfold upPush upTicks pushTicks
  simp only
  split <;> simp

theorem downPush_ticks (a d : Int) : pushTicks (downPush a d) = downTicks a d := by
  unfold downPush downTicks pushTicks
  simp only
  split <;> simp

theorem flatPush_ticks (tf ts δ : Int) : pushTicks (flatPush tf ts δ) = flatTicks tf ts δ := by
  unfold flatPush flatTicks pushTicks
  split
  · simp
  · split <;> simp

theorem abs_eq_rt_iff {a d r : Int}
    (h : r = if 0 ≤ d then d - a * rt a d else d + a * rt a d) :
    r = 0 ↔ |d| = a * rt a d := by
  subst h
  split
  · rw [abs_of_nonneg (by assumption)]; omega
  · rw [abs_of_nonpos (by omega)]; omega

theorem accSeq_eq {p : DistancePath} {vs ve ts : Int} (ha : 0 < p.amax) (hT : 2 ≤ p.tTotal)
    (hs : stepChoice p = some (vs, ve, ts)) (hf : Fits p vs ve ts) :
    p.accSeq = pushAll [] (upPush p.amax (vs - p.v0) ++
      (flatPush (p.tTotal - rt p.amax (vs - p.v0) - rt p.amax (ve - p.vn)) ts (ve - vs) ++
      downPush p.amax (ve - p.vn))) := by
  obtain ⟨q1, r1, h1, h2, h3⟩ := divRemAway_abs ha (vs - p.v0)
  obtain ⟨q4, r4, g1, g2, g3⟩ := divRemAway_abs ha (ve - p.vn)
  have i1 := abs_eq_rt_iff h3
  have i4 := abs_eq_rt_iff g3
  have hroom := hf.room
  have hadj := hf.adj_le
  have e1 : (vs ≥ p.v0) ↔ 0 ≤ vs - p.v0 := by omega
  have e4 : (ve ≤ p.vn) ↔ ve - p.vn ≤ 0 := by omega
  unfold DistancePath.accSeq
  rw [if_neg (by omega), hs]
  simp only [Option.bind_eq_bind, Option.bind_some]
  rw [h1, g1]
  simp only [Option.bind_some]
  rw [h2, g2]
  unfold cassert
  rw [if_pos hroom, if_pos hadj]
  simp only [Option.bind_some]
  rw [pushAll_append]
  have m1 : pushUp [] p.v0 vs (if vs ≥ p.v0 then p.amax else -p.amax) (rt p.amax (vs - p.v0)) r1
      = pushAll [] (upPush p.amax (vs - p.v0)) := by
    unfold pushUp upPush
    simp only [e1, i1]
    split
    · simp [pushAll]
    · simp only [pushAll, Option.bind_eq_bind, Option.bind_fun_some]
      congr 1; funext s; congr 1; ring
  rw [m1]
  congr 1; funext s
  rw [pushAll_append]
  have m2 : ∀ s, pushFlat s vs ve (p.tTotal - rt p.amax (vs - p.v0) - rt p.amax (ve - p.vn)) ts =
      pushAll s (flatPush (p.tTotal - rt p.amax (vs - p.v0) - rt p.amax (ve - p.vn)) ts
        (ve - vs)) := by
    intro s
    unfold pushFlat flatPush
    split
    · simp [pushAll]
    · split <;> simp [pushAll]
  rw [m2]
  congr 1; funext s
  unfold pushDown downPush
  simp only [e4, i4]
  split
  · simp [pushAll]
  · simp only [pushAll, Option.bind_eq_bind, Option.bind_fun_some]
    congr 2; ring

theorem pathTicks_push (p : DistancePath) (vs ve ts : Int) :
    pushTicks (upPush p.amax (vs - p.v0) ++
      (flatPush (p.tTotal - rt p.amax (vs - p.v0) - rt p.amax (ve - p.vn)) ts (ve - vs) ++
      downPush p.amax (ve - p.vn))) = pathTicks p vs ve ts := by
  rw [pushTicks_append, pushTicks_append, upPush_ticks, flatPush_ticks, downPush_ticks]
  simp [pathTicks]

theorem upPush_ok {a d : Int} (ha : 0 < a) : ∀ x ∈ upPush a d, 0 ≤ x.1 ∧ |x.2| ≤ a := by
  have hb := rt_bounds ha d
  have hn := rt_nonneg ha d
  unfold upPush
  intro x hx
  have hm : a * (rt a d - 1) = a * rt a d - a := by ring
  have hm2 : -a * (rt a d - 1) = -(a * rt a d) + a := by ring
  by_cases hd : 0 ≤ d
  · rw [abs_of_nonneg hd] at hb
    simp only [if_pos hd, abs_of_nonneg hd] at hx
    split at hx
    · simp only [List.mem_singleton] at hx
      subst hx; exact ⟨hn, by rw [abs_of_pos ha]⟩
    · rename_i he
      have := rt_pos ha (d := d) (by rintro rfl; simp [rt_zero ha] at he)
      simp only [List.mem_cons, List.not_mem_nil, or_false] at hx
      rcases hx with rfl | rfl
      · exact ⟨by simp; omega, by rw [abs_of_pos ha]⟩
      · exact ⟨by simp, by simp only [abs_le]; omega⟩
  · rw [abs_of_nonpos (by omega)] at hb
    simp only [if_neg hd, abs_of_nonpos (show d ≤ 0 by omega)] at hx
    split at hx
    · simp only [List.mem_singleton] at hx
      subst hx; exact ⟨hn, by rw [abs_neg, abs_of_pos ha]⟩
    · rename_i he
      have := rt_pos ha (d := d) (by omega)
      simp only [List.mem_cons, List.not_mem_nil, or_false] at hx
      rcases hx with rfl | rfl
      · exact ⟨by simp; omega, by rw [abs_neg, abs_of_pos ha]⟩
      · exact ⟨by simp, by simp only [abs_le]; omega⟩

theorem downPush_mem {a d : Int} (x : Int × Int) (h : x ∈ downPush a d) :
    x ∈ upPush a (-d) := by
  unfold downPush at h
  unfold upPush
  simp only [rt_neg, abs_neg, show (0 ≤ -d) ↔ d ≤ 0 by omega]
  split
  · rename_i he
    simpa only [if_pos he] using h
  · rename_i he
    simp only [if_neg he] at h
    simp only [List.mem_cons, List.not_mem_nil, or_false] at h ⊢
    exact h.symm

theorem downPush_ok {a d : Int} (ha : 0 < a) : ∀ x ∈ downPush a d, 0 ≤ x.1 ∧ |x.2| ≤ a :=
  fun x hx => upPush_ok ha x (downPush_mem x hx)

theorem flatPush_ok {a tf ts δ : Int} (ha : 0 < a) (hf : 0 ≤ tf) (hts : |ts| ≤ tf) (hd : |δ| ≤ 1) :
    ∀ x ∈ flatPush tf ts δ, 0 ≤ x.1 ∧ |x.2| ≤ a := by
  rw [abs_le] at hts hd
  unfold flatPush
  intro x hx
  split at hx
  · simp only [List.mem_cons, List.not_mem_nil, or_false] at hx
    rcases hx with rfl | rfl | rfl <;> simp only [abs_le] <;> omega
  · split at hx
    · simp only [List.mem_cons, List.not_mem_nil, or_false] at hx
      rcases hx with rfl | rfl | rfl <;> simp only [abs_le] <;> omega
    · simp only [List.mem_singleton] at hx
      subst hx
      simp only [abs_le]; omega

/-- `acc_seq` returns the run-length encoding of `pathTicks`. -/
theorem accSeq_ok {p : DistancePath} {vs ve ts : Int} (ha : 0 < p.amax) (ha' : p.amax ≤ 32767)
    (hT : 2 ≤ p.tTotal) (hT' : p.tTotal ≤ 65535)
    (hs : stepChoice p = some (vs, ve, ts)) (hf : Fits p vs ve ts) :
    ∃ segs, p.accSeq = some segs ∧ expand segs = pathTicks p vs ve ts ∧ Canonical segs := by
  rw [accSeq_eq ha hT hs hf]
  have hlen : ((pathTicks p vs ve ts).length : Int) = p.tTotal :=
    (pathTicks_run (lo := min (min vs ve) (min p.v0 p.vn)) (hi := max (max vs ve) (max p.v0 p.vn))
      ha hf (by simp) (by simp) (by simp) (by simp) (by simp) (by simp) (by simp) (by simp)).len
  obtain ⟨s', h1, h2, h3⟩ := pushAll_ok []
    (upPush p.amax (vs - p.v0) ++
      (flatPush (p.tTotal - rt p.amax (vs - p.v0) - rt p.amax (ve - p.vn)) ts (ve - vs) ++
      downPush p.amax (ve - p.vn))) canonical_nil
    (by
      intro x hx
      have : 0 ≤ x.1 ∧ |x.2| ≤ p.amax := by
        rcases List.mem_append.1 hx with hx | hx
        · exact upPush_ok ha x hx
        · rcases List.mem_append.1 hx with hx | hx
          · exact flatPush_ok ha (by have := hf.room; omega) hf.ts_le hf.step x hx
          · exact downPush_ok ha x hx
      exact ⟨this.1, this.2.trans ha'⟩)
    (by rw [pathTicks_push, hlen]; simp [expand]; omega)
  exact ⟨s', h1, by rw [h2, pathTicks_push]; simp [expand], h3⟩

end StepperPaths.IntegerCurve
