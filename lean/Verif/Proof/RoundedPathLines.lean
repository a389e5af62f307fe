import Verif.Proof.RoundedDoc
import Verif.Spec.RoundedSvg
import Verif.Proof.SvgGrow
import Verif.Spec.Draw

/-! The errors of the points of a path. -/

namespace StepperPaths.Rounded.Acc
open Spec Coords Draw StepperPaths.Svg Context Spec.Svg

variable {fl : ℝ → ℝ} {lib : Lib} {k l n m : ℕ}

/-- Two arcs from the same point are nowhere farther apart than `η`. -/
def ArcsNear (η : ℝ) (x' x : Seg) : Prop :=
  ∀ u, 0 ≤ u → u ≤ 1 → ∀ i, |coord (pointAt ⟨0, 0⟩ x' u) i - coord (pointAt ⟨0, 0⟩ x u) i| ≤ η

/-- The two segments are of the same kind, and their numbers are close. -/
inductive SegApp (k n : ℕ) (R : Vec) (η : ℝ) : Seg → Seg → Prop
  | goTo {p' p : Vec} : VApp k n p' p R → SegApp k n R η (.goTo p') (.goTo p)
  | lineTo {p' p : Vec} : VApp k n p' p R → SegApp k n R η (.lineTo p') (.lineTo p)
  | closeTo {p' p : Vec} : VApp k n p' p R → SegApp k n R η (.closeTo p') (.closeTo p)
  | arc {a' b' c' d' e' a b c d e : ℝ} : ArcsNear η (.arc a' b' c' d' e') (.arc a b c d e) →
      SegApp k n R η (.arc a' b' c' d' e') (.arc a b c d e)
  | curveTo {p' p c' c d' d : Vec} : VApp k n p' p R → VApp k n c' c ⟨2 * R.x, 2 * R.y⟩ → VApp k n d' d ⟨2 * R.x, 2 * R.y⟩ →
      SegApp k n R η (.curveTo p' c' d') (.curveTo p c d)

/-- Close segments have been added. -/
def Ext (k n : ℕ) (R : Vec) (η : ℝ) (s' s r' r : PathState) : Prop :=
  ∃ a' a, r'.segs = s'.segs ++ a' ∧ r.segs = s.segs ++ a ∧ List.Forall₂ (SegApp k n R η) a' a

/-- Position and start are close. -/
structure SNear (j : ℕ) (P : ℝ) (s' s : PathState) : Prop where
  pos : VApp j 10 s'.pos s.pos ⟨P, P⟩
  start : VApp j 10 s'.start s.start ⟨P, P⟩

theorem VApp.both {v' v V : Vec} {P : ℝ} (h : VApp k n v' v V) (hk : k ≤ l) (hx : V.x ≤ P) (hy : V.y ≤ P) : VApp l n v' v ⟨P, P⟩ :=
  (h.mono hk le_rfl).wide hx hy

section
variable {R : Vec} {η : ℝ} {s' s r' r q' q : PathState}

theorem Ext.refl (s' s : PathState) : Ext k n R η s' s s' s := ⟨[], [], by simp, by simp, .nil⟩

theorem Ext.trans (h : Ext k n R η s' s r' r) (h' : Ext k n R η r' r q' q) : Ext k n R η s' s q' q := by
  obtain ⟨a', a, e1, e2, h1⟩ := h
  obtain ⟨b', b, e3, e4, h2⟩ := h'
  exact ⟨a' ++ b', a ++ b, by rw [e3, e1, List.append_assoc], by rw [e4, e2, List.append_assoc], List.rel_append h1 h2⟩

theorem Ext.one {x' x : Seg} (e1 : r'.segs = s'.segs ++ [x']) (e2 : r.segs = s.segs ++ [x]) (h : SegApp k n R η x' x) :
    Ext k n R η s' s r' r := ⟨[x'], [x], e1, e2, .cons h .nil⟩

end

/-- The sum of the sizes. -/
noncomputable def total (args : List ℚ) : ℝ := (args.map mag).sum

theorem total_nonneg (args : List ℚ) : 0 ≤ total args :=
  List.sum_nonneg fun x hx => by
    obtain ⟨q, -, rfl⟩ := List.mem_map.1 hx
    exact mag_nonneg q

theorem total_cons (q : ℚ) (args : List ℚ) : total (q :: args) = mag q + total args := by simp [total]

/-- The setting: a transform with its error, at most `J` numbers, whose sum is at most `T`. -/
structure Setting (fl : ℝ → ℝ) (K N J : ℕ) (T : ℝ) (tr' tr A : Transform) : Prop where
  fl : FloatRounding fl
  tr : TApp K N tr' tr A
  n : N ≤ 1000

section
variable {K N J : ℕ} {T η : ℝ} {tr' tr A : Transform} (S : Setting fl K N J T tr' tr A) {j : ℕ} {P : ℝ} {s' s : PathState}
include S

theorem Setting.bound {P : ℝ} (h : P ≤ T) : (A * (⟨P, P⟩ : Vec)).x ≤ (A * (⟨T, T⟩ : Vec)).x ∧ (A * (⟨P, P⟩ : Vec)).y ≤ (A * (⟨T, T⟩ : Vec)).y := by
  have h0 := S.tr.m0.nonneg
  have h1 := S.tr.m1.nonneg
  have h2 := S.tr.m2.nonneg
  have h3 := S.tr.m3.nonneg
  constructor
  · change A.m0 * P + A.m2 * P + A.m4 ≤ A.m0 * T + A.m2 * T + A.m4
    gcongr
  · change A.m1 * P + A.m3 * P + A.m5 ≤ A.m1 * T + A.m3 * T + A.m5
    gcongr

/-- A transformed point. -/
theorem Setting.point {p' p : Vec} {P : ℝ} (h : VApp j 10 p' p ⟨P, P⟩) (hP : P ≤ T) :
    VApp (K + j + 3) (N + 10) (tapply fl tr' p') (tr * p) (A * (⟨T, T⟩ : Vec)) :=
  (S.tr.apply h S.fl (by have := S.n; omega)).wide (S.bound hP).1 (S.bound hP).2

theorem Setting.reach_nonneg (hT : 0 ≤ T) : 0 ≤ (A * (⟨T, T⟩ : Vec)).x ∧ 0 ≤ (A * (⟨T, T⟩ : Vec)).y := by
  have h0 := S.tr.m0.nonneg
  have h1 := S.tr.m1.nonneg
  have h2 := S.tr.m2.nonneg
  have h3 := S.tr.m3.nonneg
  have h4 := S.tr.m4.nonneg
  have h5 := S.tr.m5.nonneg
  constructor
  · change 0 ≤ A.m0 * T + A.m2 * T + A.m4
    positivity
  · change 0 ≤ A.m1 * T + A.m3 * T + A.m5
    positivity

/-- The next position. -/
theorem Setting.target (rel : Bool) {p' p : Vec} (x y : ℚ) (h : rel = true → VApp j 10 p' p ⟨P, P⟩) (hj : 1 ≤ j) (hP : 0 ≤ P) :
    VApp (j + 1) 10 (targetF fl rel p' ⟨fl x, fl y⟩) (Svg.target rel p ⟨x, y⟩) ⟨P + mag x, P + mag y⟩ := by
  have hx := mag_app S.fl x
  have hy := mag_app S.fl y
  cases rel with
  | false =>
    exact ⟨(hx.wide (by linarith)).mono (by omega) le_rfl, (hy.wide (by linarith)).mono (by omega) le_rfl⟩
  | true =>
    exact ⟨((h rfl).x.addr (hx.mono hj le_rfl) S.fl (by norm_num)), ((h rfl).y.addr (hy.mono hj le_rfl) S.fl (by norm_num))⟩

omit S in
theorem SNear.mono {j' : ℕ} {P' : ℝ} (h : SNear j P s' s) (hj : j ≤ j') (hP : P ≤ P') : SNear j' P' s' s :=
  ⟨(h.pos.mono hj le_rfl).wide hP hP, (h.start.mono hj le_rfl).wide hP hP⟩

theorem line_near (rel : Bool) : ∀ (args : List ℚ) {j : ℕ} {P : ℝ} {s' s : PathState}, SNear j P s' s → 1 ≤ j → 0 ≤ P →
    j + args.length ≤ J → P + total args ≤ T →
    Ext (K + J + 9) (N + 11) (A * (⟨T, T⟩ : Vec)) η s' s (lineLoopF fl rel tr' (args.map fun q : ℚ => fl (q : ℝ)) s')
      (lineLoop rel tr (args.map fun q : ℚ => (q : ℝ)) s) ∧
    SNear (j + args.length) (P + total args) (lineLoopF fl rel tr' (args.map fun q : ℚ => fl (q : ℝ)) s')
      (lineLoop rel tr (args.map fun q : ℚ => (q : ℝ)) s)
  | [], j, P, s', s, h, _, _, _, _ => ⟨Ext.refl _ _, by simpa [lineLoopF, lineLoop, total] using h⟩
  | [x], j, P, s', s, h, _, hP, _, _ => by
    refine ⟨Ext.refl _ _, ?_⟩
    exact h.mono (by simp) (by linarith [total_nonneg [x]])
  | x :: y :: args, j, P, s', s, h, hj, hP, hJ, hT => by
    rw [total_cons, total_cons] at hT ⊢
    simp only [List.length_cons] at hJ ⊢
    have hx := mag_nonneg x
    have hy := mag_nonneg y
    have ha := total_nonneg args
    simp only [List.map_cons, lineLoopF, lineLoop]
    have hpos : VApp (j + 1) 10 (targetF fl rel s'.pos ⟨fl x, fl y⟩) (Svg.target rel s.pos ⟨x, y⟩) ⟨P + (mag x + mag y), P + (mag x + mag y)⟩ :=
      (S.target rel x y (fun _ => h.pos) hj hP).wide (by simp only; linarith) (by simp only; linarith)
    have hn : SNear (j + 2) (P + (mag x + mag y))
        (({ s' with pos := targetF fl rel s'.pos ⟨fl x, fl y⟩ } : PathState).push (.lineTo (tapply fl tr' (targetF fl rel s'.pos ⟨fl x, fl y⟩))))
        (({ s with pos := Svg.target rel s.pos ⟨x, y⟩ } : PathState).push (.lineTo (tr * Svg.target rel s.pos ⟨x, y⟩))) :=
      ⟨hpos.mono (by omega) le_rfl, (h.start.mono (by omega) le_rfl).wide (by simp only; linarith) (by simp only; linarith)⟩
    obtain ⟨h1, h2⟩ := line_near rel args hn (by omega) (by linarith) (by omega) (by linarith)
    refine ⟨Ext.trans (Ext.one (by rfl) (by rfl) (.lineTo ?_)) h1, ?_⟩
    · exact (S.point hpos (by linarith)).mono (by omega) (by omega)
    · exact h2.mono (by omega) (by linarith)

theorem vert_near (rel : Bool) : ∀ (args : List ℚ) {j : ℕ} {P : ℝ} {s' s : PathState}, SNear j P s' s → 1 ≤ j → 0 ≤ P →
    j + args.length ≤ J → P + total args ≤ T →
    Ext (K + J + 9) (N + 11) (A * (⟨T, T⟩ : Vec)) η s' s (vertLoopF fl rel tr' (args.map fun q : ℚ => fl (q : ℝ)) s')
      (vertLoop rel tr (args.map fun q : ℚ => (q : ℝ)) s) ∧
    SNear (j + args.length) (P + total args) (vertLoopF fl rel tr' (args.map fun q : ℚ => fl (q : ℝ)) s')
      (vertLoop rel tr (args.map fun q : ℚ => (q : ℝ)) s)
  | [], j, P, s', s, h, _, _, _, _ => ⟨Ext.refl _ _, by simpa [vertLoopF, vertLoop, total] using h⟩
  | y :: args, j, P, s', s, h, hj, hP, hJ, hT => by
    rw [total_cons] at hT ⊢
    simp only [List.length_cons] at hJ ⊢
    have hy := mag_nonneg y
    have ha := total_nonneg args
    simp only [List.map_cons, vertLoopF, vertLoop]
    have hpos : VApp (j + 1) 10 ⟨s'.pos.x, if rel = true then fl (s'.pos.y + fl y) else fl y⟩ ⟨s.pos.x, if rel = true then s.pos.y + y else y⟩
        ⟨P + mag y, P + mag y⟩ := by
      refine ⟨(h.pos.x.mono (by omega) le_rfl).wide (by simp only; linarith), ?_⟩
      have := (S.target rel y y (fun _ => h.pos) hj hP).y
      cases rel <;> exact this
    generalize (⟨s'.pos.x, if rel = true then fl (s'.pos.y + fl y) else fl y⟩ : Vec) = p' at hpos ⊢
    generalize (⟨s.pos.x, if rel = true then s.pos.y + y else y⟩ : Vec) = p at hpos ⊢
    have hn : SNear (j + 1) (P + mag y) (({ s' with pos := p' } : PathState).push (.lineTo (tapply fl tr' p')))
        (({ s with pos := p } : PathState).push (.lineTo (tr * p))) :=
      ⟨hpos, (h.start.mono (by omega) le_rfl).wide (by simp only; linarith) (by simp only; linarith)⟩
    obtain ⟨h1, h2⟩ := vert_near rel args hn (by omega) (by linarith) (by omega) (by linarith)
    refine ⟨Ext.trans (Ext.one (by rfl) (by rfl) (.lineTo ?_)) h1, ?_⟩
    · exact (S.point hpos (by linarith)).mono (by omega) (by omega)
    · exact h2.mono (by omega) (by linarith)

theorem hor_near (rel : Bool) : ∀ (args : List ℚ) {j : ℕ} {P : ℝ} {s' s : PathState}, SNear j P s' s → 1 ≤ j → 0 ≤ P →
    j + args.length ≤ J → P + total args ≤ T →
    Ext (K + J + 9) (N + 11) (A * (⟨T, T⟩ : Vec)) η s' s (horLoopF fl rel tr' (args.map fun q : ℚ => fl (q : ℝ)) s')
      (horLoop rel tr (args.map fun q : ℚ => (q : ℝ)) s) ∧
    SNear (j + args.length) (P + total args) (horLoopF fl rel tr' (args.map fun q : ℚ => fl (q : ℝ)) s')
      (horLoop rel tr (args.map fun q : ℚ => (q : ℝ)) s)
  | [], j, P, s', s, h, _, _, _, _ => ⟨Ext.refl _ _, by simpa [horLoopF, horLoop, total] using h⟩
  | y :: args, j, P, s', s, h, hj, hP, hJ, hT => by
    rw [total_cons] at hT ⊢
    simp only [List.length_cons] at hJ ⊢
    have hy := mag_nonneg y
    have ha := total_nonneg args
    simp only [List.map_cons, horLoopF, horLoop]
    have hpos : VApp (j + 1) 10 ⟨if rel = true then fl (s'.pos.x + fl y) else fl y, s'.pos.y⟩ ⟨if rel = true then s.pos.x + y else y, s.pos.y⟩
        ⟨P + mag y, P + mag y⟩ := by
      refine ⟨?_, (h.pos.y.mono (by omega) le_rfl).wide (by simp only; linarith)⟩
      have := (S.target rel y y (fun _ => h.pos) hj hP).x
      cases rel <;> exact this
    generalize (⟨if rel = true then fl (s'.pos.x + fl y) else fl y, s'.pos.y⟩ : Vec) = p' at hpos ⊢
    generalize (⟨if rel = true then s.pos.x + y else y, s.pos.y⟩ : Vec) = p at hpos ⊢
    have hn : SNear (j + 1) (P + mag y) (({ s' with pos := p' } : PathState).push (.lineTo (tapply fl tr' p')))
        (({ s with pos := p } : PathState).push (.lineTo (tr * p))) :=
      ⟨hpos, (h.start.mono (by omega) le_rfl).wide (by simp only; linarith) (by simp only; linarith)⟩
    obtain ⟨h1, h2⟩ := hor_near rel args hn (by omega) (by linarith) (by omega) (by linarith)
    refine ⟨Ext.trans (Ext.one (by rfl) (by rfl) (.lineTo ?_)) h1, ?_⟩
    · exact (S.point hpos (by linarith)).mono (by omega) (by omega)
    · exact h2.mono (by omega) (by linarith)

/-- A point of a curve. -/
theorem Setting.control (rel : Bool) {p' p : Vec} (x y : ℚ) (h : VApp j 10 p' p ⟨P, P⟩) (hj : 1 ≤ j) :
    VApp (j + 1) 10 (vadd fl ⟨fl x, fl y⟩ (offset rel p')) ((⟨x, y⟩ : Vec) + offset rel p) ⟨mag x + P, mag y + P⟩ := by
  have hx := (mag_app S.fl x).mono hj le_rfl
  have hy := (mag_app S.fl y).mono hj le_rfl
  have ho : VApp j 10 (offset rel p') (offset rel p) ⟨P, P⟩ := by
    cases rel with
    | true => exact h
    | false => exact ⟨App.zero _ _ h.x.nonneg, App.zero _ _ h.x.nonneg⟩
  exact ⟨hx.addr ho.x S.fl (by norm_num), hy.addr ho.y S.fl (by norm_num)⟩

/-- The difference of two points. -/
theorem Setting.diff {a' a b' b : Vec} {i : ℕ} {R : Vec} (h : VApp i (N + 10) a' a R) (h' : VApp i (N + 10) b' b R) :
    VApp (i + 1) (N + 10) (vsub fl a' b') (a - b) ⟨2 * R.x, 2 * R.y⟩ := by
  have hn := S.n
  exact ⟨(h.x.subr h'.x S.fl (by omega)).wide (by simp only; linarith), (h.y.subr h'.y S.fl (by omega)).wide (by simp only; linarith)⟩

theorem cubic_near (rel : Bool) : ∀ (args : List ℚ) {j : ℕ} {P : ℝ} {s' s : PathState}, SNear j P s' s → 1 ≤ j → 0 ≤ P →
    j + args.length ≤ J → P + total args ≤ T → args.length % 6 = 0 →
    Ext (K + J + 9) (N + 11) (A * (⟨T, T⟩ : Vec)) η s' s (cubicLoopF fl rel tr' (args.map fun q : ℚ => fl (q : ℝ)) s')
      (cubicLoop rel tr (args.map fun q : ℚ => (q : ℝ)) s) ∧
    SNear (j + args.length) (P + total args) (cubicLoopF fl rel tr' (args.map fun q : ℚ => fl (q : ℝ)) s')
      (cubicLoop rel tr (args.map fun q : ℚ => (q : ℝ)) s)
  | [], j, P, s', s, h, _, _, _, _, _ => ⟨Ext.refl _ _, by simpa [cubicLoopF, cubicLoop, total] using h⟩
  | [_], _, _, _, _, _, _, _, _, _, h6 => by simp at h6
  | [_, _], _, _, _, _, _, _, _, _, _, h6 => by simp at h6
  | [_, _, _], _, _, _, _, _, _, _, _, _, h6 => by simp at h6
  | [_, _, _, _], _, _, _, _, _, _, _, _, _, h6 => by simp at h6
  | [_, _, _, _, _], _, _, _, _, _, _, _, _, _, h6 => by simp at h6
  | x1 :: y1 :: x2 :: y2 :: x :: y :: args, j, P, s', s, h, hj, hP, hJ, hT, h6 => by
    simp only [total_cons] at hT ⊢
    simp only [List.length_cons] at hJ h6 ⊢
    have m1 := mag_nonneg x1
    have m2 := mag_nonneg y1
    have m3 := mag_nonneg x2
    have m4 := mag_nonneg y2
    have m5 := mag_nonneg x
    have m6 := mag_nonneg y
    have ha := total_nonneg args
    simp only [List.map_cons, cubicLoopF, cubicLoop]
    have hp2 := S.control rel x y h.pos hj
    have hc1 := S.control rel x1 y1 h.pos hj
    have hc2 := S.control rel x2 y2 h.pos hj
    generalize vadd fl ⟨fl x, fl y⟩ (offset rel s'.pos) = p2' at hp2 ⊢
    generalize (⟨x, y⟩ : Vec) + offset rel s.pos = p2 at hp2 ⊢
    generalize vadd fl ⟨fl x1, fl y1⟩ (offset rel s'.pos) = c1' at hc1 ⊢
    generalize (⟨x1, y1⟩ : Vec) + offset rel s.pos = c1 at hc1 ⊢
    generalize vadd fl ⟨fl x2, fl y2⟩ (offset rel s'.pos) = c2' at hc2 ⊢
    generalize (⟨x2, y2⟩ : Vec) + offset rel s.pos = c2 at hc2 ⊢
    set Q := P + (mag x1 + (mag y1 + (mag x2 + (mag y2 + (mag x + mag y))))) with hQ
    have wide : ∀ {p' p : Vec} {a b : ℝ}, VApp (j + 1) 10 p' p ⟨a, b⟩ → a ≤ Q → b ≤ Q → VApp (j + 1) 10 p' p ⟨Q, Q⟩ :=
      fun h h1 h2 => h.wide h1 h2
    have hp2 := wide hp2 (by linarith) (by linarith)
    have hc1 := wide hc1 (by linarith) (by linarith)
    have hc2 := wide hc2 (by linarith) (by linarith)
    have hp := wide (h.pos.mono (Nat.le_succ j) le_rfl) (by linarith) (by linarith)
    have q2 := S.point hp2 (by linarith)
    have q1 := S.point hc1 (by linarith)
    have q3 := S.point hc2 (by linarith)
    have q0 := S.point hp (by linarith)
    set seg' := Seg.curveTo (tapply fl tr' p2') (vsub fl (tapply fl tr' c1') (tapply fl tr' s'.pos))
      (vsub fl (tapply fl tr' c2') (tapply fl tr' p2'))
    set seg := Seg.curveTo (tr * p2) (tr * c1 - tr * s.pos) (tr * c2 - tr * p2)
    have hseg : SegApp (K + J + 9) (N + 11) (A * (⟨T, T⟩ : Vec)) η seg' seg :=
      .curveTo (q2.mono (by omega) (by omega)) ((S.diff q1 q0).mono (by omega) (by omega)) ((S.diff q3 q2).mono (by omega) (by omega))
    have hn : SNear (j + 6) Q (({ s' with pos := p2', lastControl := some c2' } : PathState).push seg')
        (({ s with pos := p2, lastControl := some c2 } : PathState).push seg) :=
      ⟨hp2.mono (by omega) le_rfl, (h.start.mono (by omega) le_rfl).wide (by simp only; linarith) (by simp only; linarith)⟩
    obtain ⟨h1, h2⟩ := cubic_near rel args hn (by omega) (by linarith) (by omega) (by linarith) (by omega)
    refine ⟨Ext.trans (Ext.one (by rfl) (by rfl) hseg) h1, ?_⟩
    exact h2.mono (by omega) (by linarith)

theorem quad_near (rel : Bool) (hT0 : 0 ≤ T) : ∀ (args : List ℚ) {j : ℕ} {P : ℝ} {s' s : PathState}, SNear j P s' s → 1 ≤ j → 0 ≤ P →
    j + args.length ≤ J → P + total args ≤ T → args.length % 4 = 0 →
    Ext (K + J + 9) (N + 11) (A * (⟨T, T⟩ : Vec)) η s' s (quadLoopF fl rel tr' (args.map fun q : ℚ => fl (q : ℝ)) s')
      (quadLoop rel tr (args.map fun q : ℚ => (q : ℝ)) s) ∧
    SNear (j + args.length) (P + total args) (quadLoopF fl rel tr' (args.map fun q : ℚ => fl (q : ℝ)) s')
      (quadLoop rel tr (args.map fun q : ℚ => (q : ℝ)) s)
  | [], j, P, s', s, h, _, _, _, _, _ => ⟨Ext.refl _ _, by simpa [quadLoopF, quadLoop, total] using h⟩
  | [_], _, _, _, _, _, _, _, _, _, h6 => by simp at h6
  | [_, _], _, _, _, _, _, _, _, _, _, h6 => by simp at h6
  | [_, _, _], _, _, _, _, _, _, _, _, _, h6 => by simp at h6
  | x1 :: y1 :: x :: y :: args, j, P, s', s, h, hj, hP, hJ, hT, h6 => by
    simp only [total_cons] at hT ⊢
    simp only [List.length_cons] at hJ h6 ⊢
    have m1 := mag_nonneg x1
    have m2 := mag_nonneg y1
    have m5 := mag_nonneg x
    have m6 := mag_nonneg y
    have ha := total_nonneg args
    simp only [List.map_cons, quadLoopF, quadLoop]
    have hp2 := S.control rel x y h.pos hj
    have hc1 := S.control rel x1 y1 h.pos hj
    generalize vadd fl ⟨fl x, fl y⟩ (offset rel s'.pos) = p2' at hp2 ⊢
    generalize (⟨x, y⟩ : Vec) + offset rel s.pos = p2 at hp2 ⊢
    generalize vadd fl ⟨fl x1, fl y1⟩ (offset rel s'.pos) = c1' at hc1 ⊢
    generalize (⟨x1, y1⟩ : Vec) + offset rel s.pos = c1 at hc1 ⊢
    set Q := P + (mag x1 + (mag y1 + (mag x + mag y))) with hQ
    have wide : ∀ {p' p : Vec} {a b : ℝ}, VApp (j + 1) 10 p' p ⟨a, b⟩ → a ≤ Q → b ≤ Q → VApp (j + 1) 10 p' p ⟨Q, Q⟩ :=
      fun h h1 h2 => h.wide h1 h2
    have hp2 := wide hp2 (by linarith) (by linarith)
    have hc1 := wide hc1 (by linarith) (by linarith)
    have hp := wide (h.pos.mono (Nat.le_succ j) le_rfl) (by linarith) (by linarith)
    have q2 := S.point hp2 (by linarith)
    have q1 := S.point hc1 (by linarith)
    have q0 := S.point hp (by linarith)
    obtain ⟨r0, r1⟩ := S.reach_nonneg hT0
    have h23 : App 1 1 (fl (2 / 3)) (2 / 3) (2 / 3) :=
      App.rnd (App.exact (by rw [abs_of_pos (by norm_num)]) (.inl (by norm_num))) S.fl (by norm_num)
    have scale : ∀ {a' a : Vec} {i : ℕ}, VApp i (N + 10) a' a ⟨2 * (A * (⟨T, T⟩ : Vec)).x, 2 * (A * (⟨T, T⟩ : Vec)).y⟩ → i + 2 ≤ K + J + 9 →
        VApp (K + J + 9) (N + 11) (vmul fl a' (fl (2 / 3))) (a * (2 / 3 : ℝ)) ⟨2 * (A * (⟨T, T⟩ : Vec)).x, 2 * (A * (⟨T, T⟩ : Vec)).y⟩ := by
      intro a' a i h hi
      have hn := S.n
      exact ⟨((h.x.mulr h23 S.fl (by omega)).mono (by omega) (by omega)).wide (by simp only; linarith),
        ((h.y.mulr h23 S.fl (by omega)).mono (by omega) (by omega)).wide (by simp only; linarith)⟩
    generalize vadd fl (vmul fl (vsub fl c1' p2') (fl (2 / 3))) p2' = control'
    generalize (c1 - p2) * (2 / 3 : ℝ) + p2 = control
    set seg' := Seg.curveTo (tapply fl tr' p2') (vmul fl (vsub fl (tapply fl tr' c1') (tapply fl tr' s'.pos)) (fl (2 / 3)))
      (vmul fl (vsub fl (tapply fl tr' c1') (tapply fl tr' p2')) (fl (2 / 3)))
    set seg := Seg.curveTo (tr * p2) ((tr * c1 - tr * s.pos) * (2 / 3 : ℝ)) ((tr * c1 - tr * p2) * (2 / 3 : ℝ))
    have hseg : SegApp (K + J + 9) (N + 11) (A * (⟨T, T⟩ : Vec)) η seg' seg :=
      .curveTo (q2.mono (by omega) (by omega)) (scale (S.diff q1 q0) (by omega)) (scale (S.diff q1 q2) (by omega))
    have hn : SNear (j + 4) Q (({ s' with pos := p2', lastControl := some control' } : PathState).push seg')
        (({ s with pos := p2, lastControl := some control } : PathState).push seg) :=
      ⟨hp2.mono (by omega) le_rfl, (h.start.mono (by omega) le_rfl).wide (by simp only; linarith) (by simp only; linarith)⟩
    obtain ⟨h1, h2⟩ := quad_near rel hT0 args hn (by omega) (by linarith) (by omega) (by linarith) (by omega)
    refine ⟨Ext.trans (Ext.one (by rfl) (by rfl) hseg) h1, ?_⟩
    exact h2.mono (by omega) (by linarith)

theorem move_near (rel first : Bool) (args : List ℚ) {j : ℕ} {P : ℝ} {s' s : PathState}
    (h : (rel && !first) = true → SNear j P s' s) (hj : 1 ≤ j) (hP : 0 ≤ P)
    (hJ : j + args.length ≤ J) (hT : P + total args ≤ T) (h2 : 2 ≤ args.length) :
    Ext (K + J + 9) (N + 11) (A * (⟨T, T⟩ : Vec)) η s' s (moveCmdF fl rel first tr' (args.map fun q : ℚ => fl (q : ℝ)) s')
      (moveCmd rel first tr (args.map fun q : ℚ => (q : ℝ)) s) ∧
    SNear (j + args.length) (P + total args) (moveCmdF fl rel first tr' (args.map fun q : ℚ => fl (q : ℝ)) s')
      (moveCmd rel first tr (args.map fun q : ℚ => (q : ℝ)) s) := by
  match args, h2 with
  | x :: y :: args, _ =>
    rw [total_cons, total_cons] at hT ⊢
    simp only [List.length_cons] at hJ ⊢
    have hx := mag_nonneg x
    have hy := mag_nonneg y
    have ha := total_nonneg args
    simp only [List.map_cons, moveCmdF, moveCmd, moveFirstF, moveFirst]
    have hpos : VApp (j + 1) 10 (targetF fl (rel && !first) s'.pos ⟨fl x, fl y⟩) (Svg.target (rel && !first) s.pos ⟨x, y⟩) ⟨P + (mag x + mag y), P + (mag x + mag y)⟩ :=
      (S.target (rel && !first) x y (fun hr => (h hr).pos) hj hP).wide (by simp only; linarith) (by simp only; linarith)
    generalize targetF fl (rel && !first) s'.pos ⟨fl x, fl y⟩ = p' at hpos ⊢
    generalize Svg.target (rel && !first) s.pos ⟨x, y⟩ = p at hpos ⊢
    have hn : SNear (j + 2) (P + (mag x + mag y))
        (({ s' with pos := p', start := p' } : PathState).push (.goTo (tapply fl tr' p')))
        (({ s with pos := p, start := p } : PathState).push (.goTo (tr * p))) :=
      ⟨hpos.mono (by omega) le_rfl, hpos.mono (by omega) le_rfl⟩
    obtain ⟨h1, h2⟩ := line_near S rel args hn (by omega) (by linarith) (by omega) (by linarith)
    refine ⟨Ext.trans (Ext.one (by rfl) (by rfl) (.goTo ?_)) h1, ?_⟩
    · exact (S.point hpos (by linarith)).mono (by omega) (by omega)
    · exact h2.mono (by omega) (by linarith)

omit S in
theorem checkArgs_ok {n : ℕ} {args : List ℝ} {s r : PathState} {b : Option Built} (h : checkArgs n args s b = some (.ok (), r)) :
    n ≤ args.length ∧ args.length % n = 0 ∧ b = some (.ok (), r) := by
  unfold checkArgs at h
  split at h
  · cases h
  split at h
  · cases h
  · rename_i h1 h2
    exact ⟨by omega, by simpa using h2, h⟩

omit S in
theorem checkArgs_of {n : ℕ} {args : List ℝ} {s : PathState} {b : Option Built} (h1 : n ≤ args.length) (h2 : args.length % n = 0) :
    checkArgs n args s b = b := by
  unfold checkArgs
  rw [if_neg (by omega), if_neg (by simpa using h2)]

theorem build_near (cmd : Char) (args : List ℚ) (first : Bool) {j : ℕ} {P : ℝ} {s' s r : PathState}
    (harc : cmd = 'a' ∨ cmd = 'A' → ∀ rel, args.length % 7 = 0 → arcLoop rel tr (args.map fun q : ℚ => (q : ℝ)) s = some (.ok (), r) →
      SNear j P s' s → ∃ r', arcLoopF fl lib rel tr' (args.map fun q : ℚ => fl (q : ℝ)) s' = some (.ok (), r') ∧
        Ext (K + J + 9) (N + 11) (A * (⟨T, T⟩ : Vec)) η s' s r' r ∧ SNear (j + args.length) (P + total args) r' r)
    (h : ¬ (first = true ∧ (cmd = 'm' ∨ cmd = 'M')) → SNear j P s' s) (hj : 1 ≤ j) (hP : 0 ≤ P)
    (hJ : j + args.length ≤ J) (hT : P + total args ≤ T)
    (hb : buildPath cmd (args.map fun q : ℚ => (q : ℝ)) tr first s = some (.ok (), r)) :
    ∃ r', buildPathF fl lib cmd (args.map fun q : ℚ => fl (q : ℝ)) tr' first s' = some (.ok (), r') ∧
      Ext (K + J + 9) (N + 11) (A * (⟨T, T⟩ : Vec)) η s' s r' r ∧ SNear (j + args.length) (P + total args) r' r := by
  have hT0 : 0 ≤ T := by linarith [total_nonneg args]
  have hlen : ∀ f : ℚ → ℝ, (args.map f).length = args.length := fun f => List.length_map f
  have check : ∀ {n : ℕ} {a' a : PathState},
      checkArgs n (args.map fun q : ℚ => (q : ℝ)) s (some (.ok (), a)) = some (.ok (), r) →
      (n ≤ args.length → args.length % n = 0 → Ext (K + J + 9) (N + 11) (A * (⟨T, T⟩ : Vec)) η s' s a' a ∧ SNear (j + args.length) (P + total args) a' a) →
      ∃ r', checkArgs n (args.map fun q : ℚ => fl (q : ℝ)) s' (some (.ok (), a')) = some (.ok (), r') ∧
        Ext (K + J + 9) (N + 11) (A * (⟨T, T⟩ : Vec)) η s' s r' r ∧ SNear (j + args.length) (P + total args) r' r := by
    intro n a' a hb hr
    obtain ⟨h1, h2, h3⟩ := checkArgs_ok hb
    rw [hlen] at h1 h2
    obtain ⟨h4, h5⟩ := hr h1 h2
    cases h3
    exact ⟨a', checkArgs_of (by rwa [hlen]) (by rwa [hlen]), h4, h5⟩
  have nc : ∀ {a' a : PathState},
      Ext (K + J + 9) (N + 11) (A * (⟨T, T⟩ : Vec)) η s' s a' a ∧ SNear (j + args.length) (P + total args) a' a →
      Ext (K + J + 9) (N + 11) (A * (⟨T, T⟩ : Vec)) η s' s a'.noControl a.noControl ∧
        SNear (j + args.length) (P + total args) a'.noControl a.noControl :=
    fun h => ⟨h.1, ⟨h.2.pos, h.2.start⟩⟩
  unfold buildPath at hb
  unfold buildPathF
  split at hb
  · refine check hb fun h1 _ => ?_
    refine nc (move_near S true first args (fun hr => h ?_) hj hP hJ hT h1)
    rintro ⟨rfl, -⟩
    simp at hr
  · refine check hb fun h1 _ => ?_
    exact nc (move_near S false first args (fun hr => by simp at hr) hj hP hJ hT h1)
  · exact check hb fun _ _ => nc (line_near S true args (h (by simp)) hj hP hJ hT)
  · exact check hb fun _ _ => nc (line_near S false args (h (by simp)) hj hP hJ hT)
  · exact check hb fun _ _ => nc (vert_near S true args (h (by simp)) hj hP hJ hT)
  · exact check hb fun _ _ => nc (vert_near S false args (h (by simp)) hj hP hJ hT)
  · exact check hb fun _ _ => nc (hor_near S true args (h (by simp)) hj hP hJ hT)
  · exact check hb fun _ _ => nc (hor_near S false args (h (by simp)) hj hP hJ hT)
  · exact check hb fun _ h2 => cubic_near S true args (h (by simp)) hj hP hJ hT h2
  · exact check hb fun _ h2 => cubic_near S false args (h (by simp)) hj hP hJ hT h2
  · exact check hb fun _ h2 => quad_near S true hT0 args (h (by simp)) hj hP hJ hT h2
  · exact check hb fun _ h2 => quad_near S false hT0 args (h (by simp)) hj hP hJ hT h2
  · obtain ⟨h1, h2, h3⟩ := checkArgs_ok hb
    rw [hlen] at h1 h2
    obtain ⟨r', g1, g2, g3⟩ := harc (.inl rfl) true h2 h3 (h (by simp))
    exact ⟨r', (checkArgs_of (by rwa [hlen]) (by rwa [hlen])).trans g1, g2, g3⟩
  · obtain ⟨h1, h2, h3⟩ := checkArgs_ok hb
    rw [hlen] at h1 h2
    obtain ⟨r', g1, g2, g3⟩ := harc (.inr rfl) false h2 h3 (h (by simp))
    exact ⟨r', (checkArgs_of (by rwa [hlen]) (by rwa [hlen])).trans g1, g2, g3⟩
  · cases hb
    have hn := h (by simp)
    refine ⟨_, rfl, Ext.one (by rfl) (by rfl) (.closeTo ?_), ?_⟩
    · exact (S.point hn.start (by linarith [total_nonneg args])).mono (by omega) (by omega)
    · have hm := hn.mono (Nat.le_add_right j args.length) (le_add_of_nonneg_right (total_nonneg args))
      exact ⟨hm.start, hm.start⟩
  · cases hb
    have hn := h (by simp)
    refine ⟨_, rfl, Ext.one (by rfl) (by rfl) (.closeTo ?_), ?_⟩
    · exact (S.point hn.start (by linarith [total_nonneg args])).mono (by omega) (by omega)
    · have hm := hn.mono (Nat.le_add_right j args.length) (le_add_of_nonneg_right (total_nonneg args))
      exact ⟨hm.start, hm.start⟩
  · cases hb

omit S in
theorem total_append (a b : List ℚ) : total (a ++ b) = total a + total b := by simp [total]

/-- What is needed of the arcs of a path. -/
def ArcStep (fl : ℝ → ℝ) (lib : Lib) (K N J : ℕ) (T η : ℝ) (tr' tr A : Transform) (G : Seg → Prop) (args : List ℚ) : Prop :=
  ∀ (rel : Bool) {j : ℕ} {P : ℝ} {s' s r : PathState}, SNear j P s' s → 1 ≤ j → 0 ≤ P → j + args.length ≤ J → P + total args ≤ T →
    args.length % 7 = 0 → arcLoop rel tr (args.map fun q : ℚ => (q : ℝ)) s = some (.ok (), r) → (∀ seg ∈ r.segs, G seg) →
    ∃ r', arcLoopF fl lib rel tr' (args.map fun q : ℚ => fl (q : ℝ)) s' = some (.ok (), r') ∧
      Ext (K + J + 9) (N + 11) (A * (⟨T, T⟩ : Vec)) η s' s r' r ∧ SNear (j + args.length) (P + total args) r' r

theorem all_near {G : Seg → Prop} : ∀ (cmds : List Cmd) (first : Bool) {j : ℕ} {P : ℝ} {s' s r : PathState},
    (∀ c ∈ cmds, c.letter = 'a' ∨ c.letter = 'A' → ArcStep fl lib K N J T η tr' tr A G c.args.values) → (∀ seg ∈ r.segs, G seg) →
    (¬ (first = true ∧ ∃ c ∈ cmds.head?, c.letter = 'm' ∨ c.letter = 'M') → SNear j P s' s) → 1 ≤ j → 0 ≤ P →
    j + numbers cmds ≤ J → P + extent cmds ≤ T →
    buildAll tr first (cmds.map fun c => (c.letter, c.args.values.map fun q : ℚ => (q : ℝ))) s = some (.ok (), r) →
    ∃ r', buildAllF fl lib tr' first (cmds.map fun c => (c.letter, c.args.values.map fun q : ℚ => fl (q : ℝ))) s' = some (.ok (), r') ∧
      Ext (K + J + 9) (N + 11) (A * (⟨T, T⟩ : Vec)) η s' s r' r
  | [], first, j, P, s', s, r, _, _, h, _, _, _, _, hb => by
    cases hb
    exact ⟨s', rfl, Ext.refl _ _⟩
  | c :: cmds, first, j, P, s', s, r, hc, hG, h, hj, hP, hJ, hT, hb => by
    have e1 : numbers (c :: cmds) = c.args.values.length + numbers cmds := by simp [numbers]
    have e2 : extent (c :: cmds) = total c.args.values + extent cmds := by simp [extent, total]
    have e3 : 0 ≤ extent cmds := total_nonneg _
    have e4 := total_nonneg c.args.values
    rw [e1] at hJ
    rw [e2] at hT
    simp only [List.map_cons, buildAll, buildAllF] at hb ⊢
    rcases hq : buildPath c.letter (c.args.values.map fun q : ℚ => (q : ℝ)) tr first s with _ | ⟨_ | _, s1⟩
    · rw [hq] at hb; cases hb
    · rw [hq] at hb; cases hb
    · rw [hq] at hb
      simp only at hb
      obtain ⟨s1', g1, g2, g3⟩ := build_near (lib := lib) (η := η) S c.letter c.args.values first (s' := s')
        (fun ha rel h7 hl hs => hc c (by simp) ha rel hs hj hP (by omega) (by linarith) h7 hl
          fun seg hseg => hG seg ((Svg.Grow.all _ _ hb).subset hseg))
        (fun hn => h (by simpa using hn)) hj hP (by omega) (by linarith) hq
      obtain ⟨r', g4, g5⟩ := all_near cmds false (fun c h => hc c (by simp [h])) hG (fun _ => g3) (by omega) (by linarith) (by omega) (by linarith) hb
      exact ⟨r', by rw [g1]; exact g4, g2.trans g5⟩

end

end StepperPaths.Rounded.Acc
