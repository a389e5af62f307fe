import Verif.Proof.Ellipse
import Verif.Props.SvgPath

/-!
Properties C78 and C79: ellipses and arcs of SVG paths, `/repo/src/svg_path_parser.rs`, in exact
arithmetic.
-/

namespace StepperPaths.Props
open Coords Draw Svg Spec.Svg Spec

/-! ### C78 -/

/-- The point `p` lies on the ellipse around the origin with half axes `rx` and `ry`, whose first
axis is turned by `rot`. -/
def OnEllipse (rx ry rot : ℝ) (p : Vec) : Prop :=
  ((p.x * Real.cos rot + p.y * Real.sin rot) / rx) ^ 2 +
    ((-p.x * Real.sin rot + p.y * Real.cos rot) / ry) ^ 2 = 1

/-- **C78.**  `transform_ellipse` returns, for every invertible matrix, half axes and a rotation
of the image of the ellipse. -/
theorem C78_image (rx ry rot : ℝ) (hx : rx ≠ 0) (hy : ry ≠ 0) (m : Mat)
    (hm : m.a * m.d - m.b * m.c ≠ 0) :
    ∃ rx' ry' rot', transformEllipse rx ry rot m = some (rx', ry', rot') ∧ 0 < rx' ∧ 0 < ry' ∧
      ∀ p : Vec, OnEllipse rx ry rot p ↔
        OnEllipse rx' ry' rot' ⟨m.a * p.x + m.b * p.y, m.c * p.x + m.d * p.y⟩ := by
  obtain ⟨n, hn⟩ : ∃ n, invert2x2 m = some n := ⟨_, by simp only [invert2x2]; rw [if_neg hm]⟩
  have hpos : ∀ p : Vec, p ≠ ⟨0, 0⟩ →
      0 < form (mul2x2 (mul2x2 (transpose2x2 n) (ellipseForm rx ry rot)) n) p := by
    intro p hp
    rw [form_mul, form_ellipse hx hy]
    have hq : n.app p ≠ ⟨0, 0⟩ := by
      intro h
      apply hp
      rw [← app_invert hn p, h]
      ext <;> simp [Mat.app]
    generalize n.app p = q at hq
    have hcs := Real.cos_sq_add_sin_sq rot
    by_contra hle
    have h1 := sq_nonneg ((q.x * Real.cos rot + q.y * Real.sin rot) / rx)
    have h2 := sq_nonneg ((-q.x * Real.sin rot + q.y * Real.cos rot) / ry)
    have h3 : ((q.x * Real.cos rot + q.y * Real.sin rot) / rx) ^ 2 = 0 := by linarith
    have h4 : ((-q.x * Real.sin rot + q.y * Real.cos rot) / ry) ^ 2 = 0 := by linarith
    have h5 : q.x * Real.cos rot + q.y * Real.sin rot = 0 := by
      simpa [hx] using h3
    have h6 : -q.x * Real.sin rot + q.y * Real.cos rot = 0 := by
      have := h4
      rw [sq_eq_zero_iff, div_eq_zero_iff] at this
      exact this.resolve_right hy
    apply hq
    ext
    · show q.x = 0
      linear_combination Real.cos rot * h5 - Real.sin rot * h6 - q.x * hcs
    · show q.y = 0
      linear_combination Real.sin rot * h5 + Real.cos rot * h6 - q.y * hcs
  have hsym : (mul2x2 (mul2x2 (transpose2x2 n) (ellipseForm rx ry rot)) n).b =
      (mul2x2 (mul2x2 (transpose2x2 n) (ellipseForm rx ry rot)) n).c := by
    simp only [mul2x2, transpose2x2, ellipseForm]; ring
  obtain ⟨rx', ry', rot', h1, h2, h3, -, h4⟩ := formAxes_spec hsym hpos
  refine ⟨rx', ry', rot', ?_, h2, h3, fun p => ?_⟩
  · simp only [transformEllipse, hn, Option.bind_some]
    exact h1
  · have e1 := h4 ⟨m.a * p.x + m.b * p.y, m.c * p.x + m.d * p.y⟩
    rw [form_mul] at e1
    have e2 : n.app ⟨m.a * p.x + m.b * p.y, m.c * p.x + m.d * p.y⟩ = p := invert_app hn p
    rw [e2, form_ellipse hx hy] at e1
    simp only [OnEllipse]
    rw [e1]

/-- **C78.**  It panics when the matrix has no inverse. -/
theorem C78_singular (rx ry rot : ℝ) (m : Mat) (hm : m.a * m.d - m.b * m.c = 0) :
    transformEllipse rx ry rot m = none := by
  simp only [transformEllipse, invert2x2]
  rw [if_pos hm]
  rfl

/-- The ellipse with half axes 1 and 2, stretched: (1, 0) goes to (3, 0). -/
example : ∃ rx' ry' rot', transformEllipse 1 2 0 ⟨3, 0, 0, 1⟩ = some (rx', ry', rot') ∧
    OnEllipse rx' ry' rot' ⟨3, 0⟩ := by
  obtain ⟨rx', ry', rot', h, -, -, hp⟩ := C78_image 1 2 0 (by norm_num) (by norm_num) ⟨3, 0, 0, 1⟩
    (by norm_num)
  refine ⟨rx', ry', rot', h, ?_⟩
  have := (hp ⟨1, 0⟩).1 (by norm_num [OnEllipse])
  simpa using this

/-! ### C79 -/

theorem chord_aux {a b d e : ℝ} (ha : 0 < a) (hb : 0 < b) (hd : d ≠ 0) :
    let k := e / d
    let c := b * b / (a * a) + k * k
    let m2 := (c * d * d / 4 - b * b) / (k * k / c - 1)
    (m2 < 0 ↔ 1 < (d / (2 * a)) ^ 2 + (e / (2 * b)) ^ 2) ∧
    (0 ≤ m2 → let m := √m2
      let mp := -k * m / c
      ((mp - d / 2) / a) ^ 2 + ((k * (mp - d / 2) + m) / b) ^ 2 = 1 ∧
      ((mp + d / 2) / a) ^ 2 + ((k * (mp + d / 2) + m) / b) ^ 2 = 1 ∧
      (k * (mp + d / 2) + m) - (k * (mp - d / 2) + m) = e) := by
  intro k c m2
  have hk : k * d = e := by simp only [k]; field_simp
  have hc : 0 < c := add_pos_of_pos_of_nonneg (by positivity) (mul_self_nonneg k)
  have hden : k * k / c - 1 = -(b * b / (a * a)) / c := by
    rw [eq_div_iff hc.ne', sub_mul, div_mul_cancel₀ _ hc.ne']
    simp only [c]; ring
  have hm2 : m2 = (b * b - c * d * d / 4) * (c * (a * a) / (b * b)) := by
    simp only [m2]
    rw [hden]
    field_simp
    ring
  have hpos : 0 < c * (a * a) / (b * b) := by positivity
  have hcd : c * d * d / 4 = b * b * ((d / (2 * a)) ^ 2 + (e / (2 * b)) ^ 2) := by
    rw [← hk]
    simp only [c]
    field_simp
    norm_num
  constructor
  · rw [hm2, hcd]
    constructor
    · intro h
      by_contra hle
      push Not at hle
      have : 0 ≤ b * b - b * b * ((d / (2 * a)) ^ 2 + (e / (2 * b)) ^ 2) := by nlinarith [mul_pos hb hb]
      nlinarith
    · intro h
      have : b * b - b * b * ((d / (2 * a)) ^ 2 + (e / (2 * b)) ^ 2) < 0 := by nlinarith [mul_pos hb hb]
      exact mul_neg_of_neg_of_pos this hpos
  · intro h0 m mp
    have hm : m ^ 2 = m2 := Real.sq_sqrt h0
    have hmp : c * mp = -k * m := by simp only [mp]; field_simp
    have hca : c * (a * a) = b * b + k * k * (a * a) := by simp only [c]; field_simp
    have hmm : m ^ 2 * (b * b) = (b * b - c * d * d / 4) * (c * (a * a)) := by
      rw [hm, hm2]; field_simp
    have key : ∀ σ : ℝ, σ ^ 2 = 1 →
        ((mp + σ * (d / 2)) / a) ^ 2 + ((k * (mp + σ * (d / 2)) + m) / b) ^ 2 = 1 := by
      intro σ hσ
      have e1 : ((mp + σ * (d / 2)) / a) ^ 2 + ((k * (mp + σ * (d / 2)) + m) / b) ^ 2 =
          (c * (mp + σ * (d / 2)) ^ 2 + 2 * k * m * (mp + σ * (d / 2)) + m ^ 2) / (b * b) := by
        simp only [c]
        field_simp
        ring
      rw [e1, div_eq_one_iff_eq (by positivity)]
      have e2 : c * (c * (mp + σ * (d / 2)) ^ 2 + 2 * k * m * (mp + σ * (d / 2)) + m ^ 2) =
          m ^ 2 * (c - k * k) + c * (c * d * d / 4) := by
        have : c * mp + k * m = 0 := by rw [hmp]; ring
        linear_combination (c * mp + k * m + 2 * c * (σ * (d / 2))) * this + c * c * (d / 2) ^ 2 * hσ
      have e3 : (c - k * k) * (a * a) = b * b := by linear_combination hca
      have e4 : c * (c * (mp + σ * (d / 2)) ^ 2 + 2 * k * m * (mp + σ * (d / 2)) + m ^ 2) * (a * a) =
          c * (b * b) * (a * a) := by
        rw [e2]
        linear_combination m ^ 2 * e3 + hmm
      have ha2 : a * a ≠ 0 := by positivity
      have e5 := mul_right_cancel₀ ha2 e4
      exact mul_left_cancel₀ hc.ne' e5
    refine ⟨?_, ?_, ?_⟩
    · have := key (-1) (by norm_num)
      rwa [show mp + -1 * (d / 2) = mp - d / 2 by ring] at this
    · have := key 1 (by norm_num)
      rwa [show mp + 1 * (d / 2) = mp + d / 2 by ring] at this
    · linear_combination hk

/-- The points found for a chord lie on the ellipse and have the right difference; they are found
unless the chord does not fit. -/
theorem chord_spec {rx ry : ℝ} (hx : 0 < rx) (hy : 0 < ry) {dx dy : ℝ} (hd : ¬ (dx = 0 ∧ dy = 0)) :
    (chord rx ry dx dy = none ↔ 1 < (dx / (2 * rx)) ^ 2 + (dy / (2 * ry)) ^ 2) ∧
    ∀ p1 p2, chord rx ry dx dy = some (p1, p2) →
      (p1.x / rx) ^ 2 + (p1.y / ry) ^ 2 = 1 ∧ (p2.x / rx) ^ 2 + (p2.y / ry) ^ 2 = 1 ∧
      p2.x - p1.x = dx ∧ p2.y - p1.y = dy := by
  unfold chord
  split
  · rename_i h
    have hdx : dx ≠ 0 := by
      rintro rfl
      rw [abs_zero] at h
      exact absurd (abs_nonneg dy) (not_le.2 h)
    obtain ⟨h1, h2⟩ := chord_aux (e := dy) hx hy hdx
    unfold chordFlat
    simp only [] at h1 h2 ⊢
    constructor
    · rw [← h1]
      split <;> simp_all
    · intro p1 p2 hp
      split at hp
      · cases hp
      rename_i hm
      obtain ⟨q1, q2, q3⟩ := h2 (not_lt.1 hm)
      simp only [Option.some.injEq, Prod.mk.injEq] at hp
      obtain ⟨rfl, rfl⟩ := hp
      exact ⟨q1, q2, by ring, q3⟩
  · rename_i h
    have hdy : dy ≠ 0 := by
      rintro rfl
      rw [abs_zero, not_lt] at h
      exact hd ⟨abs_nonpos_iff.1 h, rfl⟩
    obtain ⟨h1, h2⟩ := chord_aux (e := dx) hy hx hdy
    unfold chordSteep
    simp only [] at h1 h2 ⊢
    constructor
    · rw [add_comm ((dx / (2 * rx)) ^ 2), ← h1]
      split <;> simp_all
    · intro p1 p2 hp
      split at hp
      · cases hp
      rename_i hm
      obtain ⟨q1, q2, q3⟩ := h2 (not_lt.1 hm)
      simp only [Option.some.injEq, Prod.mk.injEq] at hp
      obtain ⟨rfl, rfl⟩ := hp
      exact ⟨by rw [add_comm]; exact q1, by rw [add_comm]; exact q2, q3, by ring⟩

theorem atan2_circle {x y : ℝ} (h : x ^ 2 + y ^ 2 = 1) :
    Real.cos (Vec.atan2 y x) = x ∧ Real.sin (Vec.atan2 y x) = y := by
  have hn : ‖(⟨x, y⟩ : ℂ)‖ = 1 := by
    rw [Complex.norm_def, Complex.normSq_mk, Real.sqrt_eq_one]; linarith
  have hz : (⟨x, y⟩ : ℂ) ≠ 0 := by
    intro h0; rw [h0] at hn; simp at hn
  simp only [Vec.atan2]
  rw [Complex.cos_arg hz, Complex.sin_arg, hn]
  simp

/-- What the angles of an arc from `p1` to `p2` have to be: up to a half turn of both, they are
the angles of the points, `stop` is beyond `start` in the direction of the sweep, and the
arc is as large as it is said to be. -/
structure ArcAngles (rx ry dx dy : ℝ) (large sweep : Prop) (a1 a2 : ℝ) : Prop where
  x : rx * Real.cos a2 - rx * Real.cos a1 = dx
  y : ry * Real.sin a2 - ry * Real.sin a1 = dy
  pos : sweep → a1 < a2
  neg : ¬ sweep → a2 < a1
  long : large → Real.pi ≤ |a2 - a1|
  short : ¬ large → |a2 - a1| ≤ Real.pi
  turn : |a2 - a1| < 2 * Real.pi

open Classical in
theorem arcAngles_spec {rx ry : ℝ} (hx : 0 < rx) (hy : 0 < ry) {p1 p2 : Vec}
    (h1 : (p1.x / rx) ^ 2 + (p1.y / ry) ^ 2 = 1) (h2 : (p2.x / rx) ^ 2 + (p2.y / ry) ^ 2 = 1)
    (hne : p1 ≠ p2) (large sweep : Prop) :
    ArcAngles rx ry (p2.x - p1.x) (p2.y - p1.y) large sweep
      (arcAngles rx ry p1 p2 large sweep).1 (arcAngles rx ry p1 p2 large sweep).2 := by
  obtain ⟨c1, s1⟩ := atan2_circle h1
  obtain ⟨c2, s2⟩ := atan2_circle h2
  have hpi := Real.pi_pos
  have r1 := Complex.arg_mem_Ioc ⟨p1.x / rx, p1.y / ry⟩
  have r2 := Complex.arg_mem_Ioc ⟨p2.x / rx, p2.y / ry⟩
  change Vec.atan2 (p1.y / ry) (p1.x / rx) ∈ _ at r1
  change Vec.atan2 (p2.y / ry) (p2.x / rx) ∈ _ at r2
  have hneq : Vec.atan2 (p1.y / ry) (p1.x / rx) ≠ Vec.atan2 (p2.y / ry) (p2.x / rx) := by
    intro h
    rw [h, c2] at c1
    rw [h, s2] at s1
    apply hne
    ext
    · field_simp at c1; exact c1.symm
    · field_simp at s1; exact s1.symm
  simp only [arcAngles]
  generalize Vec.atan2 (p1.y / ry) (p1.x / rx) = b1 at *
  generalize Vec.atan2 (p2.y / ry) (p2.x / rx) = b2 at *
  simp only [Set.mem_Ioc] at r1 r2
  obtain ⟨b3, hb3⟩ : ∃ b3, b3 = (if Xor large (|b2 - b1| > Real.pi) then
      (if b1 < b2 then b2 - 2 * Real.pi else b2 + 2 * Real.pi) else b2) := ⟨_, rfl⟩
  rw [← hb3]
  have f1 : Real.cos b3 = Real.cos b2 ∧ Real.sin b3 = Real.sin b2 := by
    rw [hb3]
    split
    · split
      · exact ⟨Real.cos_sub_two_pi _, Real.sin_sub_two_pi _⟩
      · exact ⟨Real.cos_add_two_pi _, Real.sin_add_two_pi _⟩
    · exact ⟨rfl, rfl⟩
  have f2 : (large → Real.pi ≤ |b3 - b1|) ∧ (¬ large → |b3 - b1| ≤ Real.pi) ∧
      |b3 - b1| < 2 * Real.pi ∧ b3 ≠ b1 := by
    rcases lt_or_gt_of_ne hneq with hlt | hgt
    · rw [if_pos hlt, abs_of_pos (by linarith : 0 < b2 - b1)] at hb3
      by_cases hl : large
      · by_cases hb : b2 - b1 > Real.pi
        · rw [if_neg (by simp [Xor, hl, hb])] at hb3
          subst hb3
          rw [abs_of_pos (by linarith : 0 < b3 - b1)]
          exact ⟨fun _ => by linarith, fun h => absurd hl h, by linarith, by linarith⟩
        · rw [if_pos (by simp [Xor, hl, hb])] at hb3
          subst hb3
          rw [abs_of_neg (by linarith)]
          exact ⟨fun _ => by linarith, fun h => absurd hl h, by linarith, by linarith⟩
      · by_cases hb : b2 - b1 > Real.pi
        · rw [if_pos (by simp [Xor, hl, hb])] at hb3
          subst hb3
          rw [abs_of_neg (by linarith)]
          exact ⟨fun h => absurd h hl, fun _ => by linarith, by linarith, by linarith⟩
        · rw [if_neg (by simp [Xor, hl, hb])] at hb3
          subst hb3
          rw [abs_of_pos (by linarith : 0 < b3 - b1)]
          exact ⟨fun h => absurd h hl, fun _ => by linarith, by linarith, by linarith⟩
    · rw [if_neg (not_lt.2 hgt.le), abs_of_neg (by linarith : b2 - b1 < 0)] at hb3
      by_cases hl : large
      · by_cases hb : -(b2 - b1) > Real.pi
        · rw [if_neg (by simp only [Xor, hl, hb]; simp)] at hb3
          subst hb3
          rw [abs_of_neg (by linarith : b3 - b1 < 0)]
          exact ⟨fun _ => by linarith, fun h => absurd hl h, by linarith, by linarith⟩
        · rw [if_pos (by simp only [Xor, hl, hb]; simp)] at hb3
          subst hb3
          rw [abs_of_pos (by linarith)]
          exact ⟨fun _ => by linarith, fun h => absurd hl h, by linarith, by linarith⟩
      · by_cases hb : -(b2 - b1) > Real.pi
        · rw [if_pos (by simp only [Xor, hl, hb]; simp)] at hb3
          subst hb3
          rw [abs_of_pos (by linarith)]
          exact ⟨fun h => absurd h hl, fun _ => by linarith, by linarith, by linarith⟩
        · rw [if_neg (by simp only [Xor, hl, hb]; simp)] at hb3
          subst hb3
          rw [abs_of_neg (by linarith : b3 - b1 < 0)]
          exact ⟨fun h => absurd h hl, fun _ => by linarith, by linarith, by linarith⟩
  clear hb3
  obtain ⟨g1, g2, g3, g4⟩ := f2
  rw [← f1.1] at c2
  rw [← f1.2] at s2
  split
  · rename_i hs
    have e : b1 + Real.pi - (b3 + Real.pi) = -(b3 - b1) := by ring
    constructor
    · simp only [Real.cos_add_pi, c1, c2]; field_simp; ring
    · simp only [Real.sin_add_pi, s1, s2]; field_simp; ring
    · intro h
      rcases hs with ⟨_, hs⟩ | ⟨_, hs⟩
      · have := lt_of_le_of_ne (not_lt.1 hs) g4
        simp only []; linarith
      · exact absurd h hs
    · intro h
      rcases hs with ⟨hs, _⟩ | ⟨hs, _⟩
      · exact absurd hs h
      · simp only []; linarith
    · simp only [e, abs_neg]; exact g1
    · simp only [e, abs_neg]; exact g2
    · simp only [e, abs_neg]; exact g3
  · rename_i hs
    constructor
    · simp only [c1, c2]; field_simp
    · simp only [s1, s2]; field_simp
    · intro h
      by_contra hn
      exact hs (.inl ⟨h, hn⟩)
    · intro h
      by_contra hn
      exact hs (.inr ⟨lt_of_le_of_ne (not_lt.1 hn) (Ne.symm g4), h⟩)
    · exact g1
    · exact g2
    · exact g3

theorem build_one_arc (rx ry rot large sweep x y : ℝ) (tr : Transform) (first : Bool)
    (s : PathState) : buildPath 'A' [rx, ry, rot, large, sweep, x, y] tr first s =
      match arcSeg tr (tr * (⟨x, y⟩ : Vec) - tr * s.pos)
        ⟨rx, ry, rot * Real.pi / 180, large ≠ 0, sweep ≠ 0⟩ with
      | none => none
      | some (.error e) => some (.error e, s)
      | some (.ok seg) => some (.ok (), { s.push seg with pos := ⟨x, y⟩ }) := by
  rw [build_arc (.inr rfl), check_good (by simp) (by simp)]
  rfl

theorem moved_ne {tr : Transform} (hd : tr.m0 * tr.m3 - tr.m2 * tr.m1 ≠ 0) {p q : Vec}
    (h : p ≠ q) : ¬ ((tr * p - tr * q).x = 0 ∧ (tr * p - tr * q).y = 0) := by
  rintro ⟨h1, h2⟩
  simp only [tvec, vsub] at h1 h2
  apply h
  ext
  · apply mul_left_cancel₀ hd
    linear_combination tr.m3 * h1 - tr.m2 * h2
  · apply mul_left_cancel₀ hd
    linear_combination -tr.m1 * h1 + tr.m0 * h2

/-- The result of one arc once the ellipse is known; `v` is the turned chord. -/
theorem arcSeg_spec {tr : Transform} {d : Vec} {a : ArcArgs} {rx ry rot : ℝ}
    (hd : ¬ (d.x = 0 ∧ d.y = 0)) (hx : 0 < rx) (hy : 0 < ry)
    (he : transformEllipse a.rx a.ry a.rot ⟨tr.m0, tr.m2, tr.m1, tr.m3⟩ = some (rx, ry, rot))
    {v : Vec} (hv : v = Transform.rotate a.rot * d) :
    (1 < (v.x / (2 * rx)) ^ 2 + (v.y / (2 * ry)) ^ 2 → arcSeg tr d a = some (.error .ellipseTooSmall)) ∧
    ((v.x / (2 * rx)) ^ 2 + (v.y / (2 * ry)) ^ 2 ≤ 1 →
      ∃ a1 a2, arcSeg tr d a = some (.ok (.arc rx ry a1 a2 rot)) ∧
        ArcAngles rx ry v.x v.y a.largeArc a.sweep a1 a2) := by
  have hvx : d.x * Real.cos a.rot - d.y * Real.sin a.rot = v.x := by
    rw [hv]; simp [Transform.rotate]; ring
  have hvy : d.x * Real.sin a.rot + d.y * Real.cos a.rot = v.y := by
    rw [hv]; simp [Transform.rotate]; ring
  have hv0 : ¬ (v.x = 0 ∧ v.y = 0) := by
    rintro ⟨h1, h2⟩
    rw [h1] at hvx
    rw [h2] at hvy
    have hcs := Real.cos_sq_add_sin_sq a.rot
    apply hd
    constructor
    · linear_combination Real.cos a.rot * hvx + Real.sin a.rot * hvy - d.x * hcs
    · linear_combination -Real.sin a.rot * hvx + Real.cos a.rot * hvy - d.y * hcs
  obtain ⟨h1, h2⟩ := chord_spec hx hy hv0
  unfold arcSeg
  rw [if_neg hd, he]
  simp only [Option.bind_some, hvx, hvy]
  constructor
  · intro h
    rw [h1.2 h]
  · intro h
    rcases hc : chord rx ry v.x v.y with _ | ⟨p1, p2⟩
    · exact absurd (h1.1 hc) (not_lt.2 h)
    · obtain ⟨q1, q2, q3, q4⟩ := h2 p1 p2 hc
      have hne : p1 ≠ p2 := by
        rintro rfl
        exact hv0 ⟨by linarith, by linarith⟩
      refine ⟨_, _, rfl, ?_⟩
      have := arcAngles_spec hx hy q1 q2 hne a.largeArc a.sweep
      rwa [q3, q4] at this

/-- **C79.**  For an arc without rotation the segment is an arc of the transformed ellipse which
joins the current point to the end point, in the requested direction and size; if the ellipse
is too small for that, it is an error. -/
theorem C79_arc (rx ry large sweep x y : ℝ) (hx : rx ≠ 0) (hy : ry ≠ 0) (tr : Transform)
    (hd : tr.m0 * tr.m3 - tr.m2 * tr.m1 ≠ 0) (first : Bool) (s : PathState)
    (hne : (⟨x, y⟩ : Vec) ≠ s.pos) :
    let d := tr * (⟨x, y⟩ : Vec) - tr * s.pos
    ∃ rx' ry' rot', 0 < rx' ∧ 0 < ry' ∧
      (∀ p : Vec, OnEllipse rx ry 0 p ↔ OnEllipse rx' ry' rot' (tr.noTranslation * p)) ∧
      (1 < (d.x / (2 * rx')) ^ 2 + (d.y / (2 * ry')) ^ 2 →
        buildPath 'A' [rx, ry, 0, large, sweep, x, y] tr first s =
          some (.error .ellipseTooSmall, s)) ∧
      ((d.x / (2 * rx')) ^ 2 + (d.y / (2 * ry')) ^ 2 ≤ 1 → ∃ a1 a2,
        buildPath 'A' [rx, ry, 0, large, sweep, x, y] tr first s =
          some (.ok (), ⟨⟨x, y⟩, s.start, s.lastControl, s.segs ++ [.arc rx' ry' a1 a2 rot']⟩) ∧
        ArcAngles rx' ry' d.x d.y (large ≠ 0) (sweep ≠ 0) a1 a2) := by
  intro d
  obtain ⟨rx', ry', rot', h1, h2, h3, h4⟩ := C78_image rx ry 0 hx hy ⟨tr.m0, tr.m2, tr.m1, tr.m3⟩ hd
  refine ⟨rx', ry', rot', h2, h3, fun p => ?_, ?_⟩
  · rw [h4]
    simp [Transform.noTranslation]
  · have hv : d = Transform.rotate 0 * d := by
      ext <;> simp [Transform.rotate]
    have e : (0 : ℝ) * Real.pi / 180 = 0 := by simp
    have := arcSeg_spec (a := ⟨rx, ry, 0, large ≠ 0, sweep ≠ 0⟩) (moved_ne hd hne) h2 h3 h1 hv
    simp only [build_one_arc, e]
    constructor
    · intro h
      rw [this.1 h]
    · intro h
      obtain ⟨a1, a2, e1, e2⟩ := this.2 h
      refine ⟨a1, a2, ?_, e2⟩
      rw [e1]
      rfl

/-- **C79.**  An arc that ends where it starts is an error. -/
theorem C79_zero (rx ry rot large sweep : ℝ) (tr : Transform) (first : Bool) (s : PathState) :
    buildPath 'A' [rx, ry, rot, large, sweep, s.pos.x, s.pos.y] tr first s =
      some (.error .zeroArc, s) := by
  rw [build_one_arc]
  have : arcSeg tr (tr * (⟨s.pos.x, s.pos.y⟩ : Vec) - tr * s.pos)
      ⟨rx, ry, rot * Real.pi / 180, large ≠ 0, sweep ≠ 0⟩ = some (.error .zeroArc) := by
    unfold arcSeg
    rw [if_pos (by constructor <;> simp)]
  rw [this]

/-- The transform scales all lengths by `k`. -/
structure Similar (tr : Transform) (k : ℝ) : Prop where
  first : tr.m0 ^ 2 + tr.m1 ^ 2 = k ^ 2
  second : tr.m2 ^ 2 + tr.m3 ^ 2 = k ^ 2
  mixed : tr.m0 * tr.m2 + tr.m1 * tr.m3 = 0

theorem Similar.det {tr : Transform} {k : ℝ} (h : Similar tr k) (hk : k ≠ 0) :
    tr.m0 * tr.m3 - tr.m2 * tr.m1 ≠ 0 := by
  intro h0
  have : k ^ 2 * k ^ 2 = 0 := by
    linear_combination (-(tr.m2 ^ 2 + tr.m3 ^ 2)) * h.first - k ^ 2 * h.second +
      (tr.m0 * tr.m3 - tr.m2 * tr.m1) * h0 + (tr.m0 * tr.m2 + tr.m1 * tr.m3) * h.mixed
  have hk2 : k ^ 2 ≠ 0 := by positivity
  exact hk2 (mul_self_eq_zero.1 this)

theorem circle_ellipse {tr : Transform} {k r rot : ℝ} (hk : 0 < k) (hr : 0 < r) (h : Similar tr k) :
    transformEllipse r r rot ⟨tr.m0, tr.m2, tr.m1, tr.m3⟩ = some (k * r, k * r, 0) := by
  have hd := h.det hk.ne'
  obtain ⟨D, hD⟩ : ∃ D, D = tr.m0 * tr.m3 - tr.m2 * tr.m1 := ⟨_, rfl⟩
  have hD2 : D ^ 2 = k ^ 2 * k ^ 2 := by
    rw [hD]
    linear_combination (tr.m2 ^ 2 + tr.m3 ^ 2) * h.first + k ^ 2 * h.second -
      (tr.m0 * tr.m2 + tr.m1 * tr.m3) * h.mixed
  rw [← hD] at hd
  have hcs := Real.cos_sq_add_sin_sq rot
  have hE : ellipseForm r r rot = ⟨1 / r ^ 2, 0, 0, 1 / r ^ 2⟩ := by
    simp only [ellipseForm]
    ext
    · simp only []
      rw [← add_div, ← sq, ← sq, hcs, sq]
    · simp
    · simp
    · simp only []
      rw [← add_div, ← sq, ← sq, add_comm, hcs, sq]
  have hinv : invert2x2 ⟨tr.m0, tr.m2, tr.m1, tr.m3⟩ =
      some ⟨tr.m3 / D, -tr.m2 / D, -tr.m1 / D, tr.m0 / D⟩ := by
    simp only [invert2x2, ← hD]
    rw [if_neg hd]
  have hq : mul2x2 (mul2x2 (transpose2x2 ⟨tr.m3 / D, -tr.m2 / D, -tr.m1 / D, tr.m0 / D⟩)
      ⟨1 / r ^ 2, 0, 0, 1 / r ^ 2⟩) ⟨tr.m3 / D, -tr.m2 / D, -tr.m1 / D, tr.m0 / D⟩ =
      ⟨1 / (k * r) ^ 2, 0, 0, 1 / (k * r) ^ 2⟩ := by
    have k4 : k ^ 2 * k ^ 2 ≠ 0 := by positivity
    have u0 : tr.m0 * D = k ^ 2 * tr.m3 := by
      rw [hD]; linear_combination tr.m3 * h.first - tr.m1 * h.mixed
    have u1 : tr.m1 * D = -(k ^ 2 * tr.m2) := by
      rw [hD]; linear_combination -tr.m2 * h.first + tr.m0 * h.mixed
    have v1 : tr.m1 * tr.m0 + tr.m3 * tr.m2 = 0 := by
      apply mul_left_cancel₀ k4
      rw [← hD2]
      linear_combination tr.m1 * D * u0 + k ^ 2 * tr.m3 * u1 + tr.m2 * tr.m3 * hD2
    have v2 : tr.m1 ^ 2 + tr.m3 ^ 2 = tr.m0 ^ 2 + tr.m2 ^ 2 := by
      apply mul_left_cancel₀ k4
      linear_combination (tr.m1 * D - k ^ 2 * tr.m2) * u1 - (tr.m0 * D + k ^ 2 * tr.m3) * u0 +
        (tr.m0 ^ 2 - tr.m1 ^ 2) * hD2
    have v3 : tr.m1 ^ 2 + tr.m3 ^ 2 = k ^ 2 := by linarith [h.first, h.second]
    have v4 : tr.m0 ^ 2 + tr.m2 ^ 2 = k ^ 2 := by linarith
    have e1 : (1 : ℝ) / (k * r) ^ 2 = k ^ 2 / (D ^ 2 * r ^ 2) := by
      rw [hD2]; field_simp
    rw [e1]
    simp only [mul2x2, transpose2x2]
    ext
    · simp only []
      rw [← v3]; field_simp; ring
    · simp only []
      have : tr.m0 * tr.m1 = -(tr.m3 * tr.m2) := by linarith
      field_simp
      linear_combination -v1
    · simp only []
      field_simp
      linear_combination -v1
    · simp only []
      rw [← v4]; field_simp; ring
  simp only [transformEllipse, hinv, Option.bind_some, hE, hq]
  have ha : Vec.atan2 (-(0 : ℝ) * 2) (1 / (k * r) ^ 2 - 1 / (k * r) ^ 2) / 2 = 0 := by
    have : (⟨0, 0⟩ : ℂ) = 0 := rfl
    simp [Vec.atan2, this]
  unfold formAxes
  simp only [ha, Real.sin_zero, Real.cos_zero]
  have hp : 0 < 1 / (k * r) ^ 2 := by positivity
  rw [if_neg (by rw [not_le]; simpa using hp), if_neg (by rw [not_le]; simpa using hp)]
  have : √(1 / (1 / (k * r) ^ 2)) = k * r := by
    rw [one_div_one_div, Real.sqrt_sq (by positivity)]
  simp only [mul_one, mul_zero, add_zero, sub_zero, zero_add, this]

/-- A circular arc under a transform that scales all lengths by `k`; the chord is turned by the
rotation of the command. -/
theorem circle_arc (r rot large sweep x y : ℝ) (hr : 0 < r) (tr : Transform) (k : ℝ) (hk : 0 < k)
    (hs : Similar tr k) (first : Bool) (s : PathState) (hne : (⟨x, y⟩ : Vec) ≠ s.pos) :
    let d := Transform.rotate (rot * Real.pi / 180) * (tr * (⟨x, y⟩ : Vec) - tr * s.pos)
    (2 * r < ((⟨x, y⟩ : Vec) - s.pos).length →
      buildPath 'A' [r, r, rot, large, sweep, x, y] tr first s =
        some (.error .ellipseTooSmall, s)) ∧
    (((⟨x, y⟩ : Vec) - s.pos).length ≤ 2 * r → ∃ a1 a2,
      buildPath 'A' [r, r, rot, large, sweep, x, y] tr first s =
        some (.ok (), ⟨⟨x, y⟩, s.start, s.lastControl, s.segs ++ [.arc (k * r) (k * r) a1 a2 0]⟩) ∧
      ArcAngles (k * r) (k * r) d.x d.y (large ≠ 0) (sweep ≠ 0) a1 a2) := by
  intro d
  have hkr : 0 < k * r := by positivity
  have := arcSeg_spec (a := ⟨r, r, rot * Real.pi / 180, large ≠ 0, sweep ≠ 0⟩)
    (moved_ne (hs.det hk.ne') hne) hkr hkr (circle_ellipse hk hr hs) (v := d) rfl
  have hlen : (d.x / (2 * (k * r))) ^ 2 + (d.y / (2 * (k * r))) ^ 2 =
      (((⟨x, y⟩ : Vec) - s.pos).length / (2 * r)) ^ 2 := by
    have hcs := Real.cos_sq_add_sin_sq (rot * Real.pi / 180)
    have e : d.x ^ 2 + d.y ^ 2 = k ^ 2 * ((⟨x, y⟩ : Vec) - s.pos).length ^ 2 := by
      have e1 : ((⟨x, y⟩ : Vec) - s.pos).length ^ 2 = (x - s.pos.x) ^ 2 + (y - s.pos.y) ^ 2 := by
        simp only [Vec.length, vsub]
        rw [Real.sq_sqrt (by nlinarith [sq_nonneg (x - s.pos.x), sq_nonneg (y - s.pos.y)])]
        ring
      rw [e1]
      simp only [d, Transform.rotate, tvec, vsub]
      generalize Real.cos (rot * Real.pi / 180) = c at *
      generalize Real.sin (rot * Real.pi / 180) = σ at *
      generalize hX : x - s.pos.x = X
      generalize hY : y - s.pos.y = Y
      have hx' : x = X + s.pos.x := by linarith
      have hy' : y = Y + s.pos.y := by linarith
      rw [hx', hy']
      linear_combination ((tr.m0 * X + tr.m2 * Y) ^ 2 + (tr.m1 * X + tr.m3 * Y) ^ 2) * hcs +
        X ^ 2 * hs.first + Y ^ 2 * hs.second + 2 * X * Y * hs.mixed
    rw [div_pow, div_pow, ← add_div, e]
    field_simp
  have hl0 : 0 ≤ ((⟨x, y⟩ : Vec) - s.pos).length := Real.sqrt_nonneg _
  rw [hlen] at this
  rw [build_one_arc]
  constructor
  · intro h
    rw [this.1]
    rw [one_lt_sq_iff₀ (by positivity), lt_div_iff₀ (by positivity)]
    simpa using h
  · intro h
    obtain ⟨a1, a2, e1, e2⟩ := this.2 (by
      rw [sq_le_one_iff₀ (by positivity), div_le_one (by positivity)]; exact h)
    refine ⟨a1, a2, ?_, e2⟩
    rw [e1]
    rfl

/-- **C79.**  A circular arc under a similarity: it is an error exactly if the end points are more
than a diameter apart, otherwise the segment is a circular arc of the scaled radius that leads
from the transformed start to the transformed end. -/
theorem C79_circle (r large sweep x y : ℝ) (hr : 0 < r) (tr : Transform) (k : ℝ) (hk : 0 < k)
    (hs : Similar tr k) (first : Bool) (s : PathState) (hne : (⟨x, y⟩ : Vec) ≠ s.pos) :
    (2 * r < ((⟨x, y⟩ : Vec) - s.pos).length →
      buildPath 'A' [r, r, 0, large, sweep, x, y] tr first s =
        some (.error .ellipseTooSmall, s)) ∧
    (((⟨x, y⟩ : Vec) - s.pos).length ≤ 2 * r → ∃ a1 a2,
      buildPath 'A' [r, r, 0, large, sweep, x, y] tr first s =
        some (.ok (), ⟨⟨x, y⟩, s.start, s.lastControl, s.segs ++ [.arc (k * r) (k * r) a1 a2 0]⟩) ∧
      pointAt (tr * s.pos) (.arc (k * r) (k * r) a1 a2 0) 1 = tr * (⟨x, y⟩ : Vec) ∧
      (a1 < a2 ↔ sweep ≠ 0) ∧ |a2 - a1| < 2 * Real.pi ∧
      (if large ≠ 0 then Real.pi ≤ |a2 - a1| else |a2 - a1| ≤ Real.pi)) := by
  obtain ⟨h1, h2⟩ := circle_arc r 0 large sweep x y hr tr k hk hs first s hne
  refine ⟨h1, fun h => ?_⟩
  obtain ⟨a1, a2, e1, e2⟩ := h2 h
  have ex := e2.x
  have ey := e2.y
  simp [Transform.rotate] at ex ey
  refine ⟨a1, a2, e1, ?_, ?_, e2.turn, ?_⟩
  · ext <;> simp [pointAt]
    · linarith
    · linarith
  · constructor
    · intro h hn
      exact absurd (e2.neg (not_not.2 hn)) (not_lt.2 h.le)
    · exact e2.pos
  · split
    · rename_i hl; exact e2.long hl
    · rename_i hl; exact e2.short hl

/-- A quarter circle from (0, 0) to (1, 1), drawn twice as large: the segment is an arc of radius 2
from (0, 0) to (2, 2) with increasing angle. -/
example : ∃ a1 a2, buildPath 'A' [1, 1, 0, 0, 1, 1, 1] (Transform.scale 2) true .new =
      some (.ok (), ⟨⟨1, 1⟩, ⟨0, 0⟩, none, [.arc (2 * 1) (2 * 1) a1 a2 0]⟩) ∧
    pointAt ⟨0, 0⟩ (.arc (2 * 1) (2 * 1) a1 a2 0) 1 = ⟨2, 2⟩ ∧ a1 < a2 := by
  obtain ⟨a1, a2, h1, h2, h3, -⟩ := (C79_circle 1 0 1 1 1 one_pos (Transform.scale 2) 2 two_pos
    ⟨by simp [Transform.scale], by simp [Transform.scale], by simp [Transform.scale]⟩ true .new
    (by simp [PathState.new])).2 (by
      simp only [Vec.length, PathState.new, vsub]
      rw [Real.sqrt_le_left (by norm_num)]
      norm_num)
  refine ⟨a1, a2, h1, ?_, h3.2 one_ne_zero⟩
  simpa [PathState.new, Transform.scale] using h2

/-- **C79.**  The rotation argument should not matter for a circle, but the chord is turned by it: the
arc ends at the wrong place. -/
theorem C79_turned (r rot large sweep x y : ℝ) (hr : 0 < r) (tr : Transform) (k : ℝ) (hk : 0 < k)
    (hs : Similar tr k) (first : Bool) (s : PathState) (hne : (⟨x, y⟩ : Vec) ≠ s.pos)
    (hl : ((⟨x, y⟩ : Vec) - s.pos).length ≤ 2 * r) :
    ∃ a1 a2, buildPath 'A' [r, r, rot, large, sweep, x, y] tr first s =
        some (.ok (), ⟨⟨x, y⟩, s.start, s.lastControl, s.segs ++ [.arc (k * r) (k * r) a1 a2 0]⟩) ∧
      pointAt (tr * s.pos) (.arc (k * r) (k * r) a1 a2 0) 1 = tr * s.pos +
        Transform.rotate (rot * Real.pi / 180) * (tr * (⟨x, y⟩ : Vec) - tr * s.pos) := by
  obtain ⟨a1, a2, e1, e2⟩ := (circle_arc r rot large sweep x y hr tr k hk hs first s hne).2 hl
  have ex := e2.x
  have ey := e2.y
  refine ⟨a1, a2, e1, ?_⟩
  rw [vadd (tr * s.pos)]
  ext
  · rw [← ex]; simp [pointAt]
  · rw [← ey]; simp [pointAt]

/-- **C79.**  For example, a quarter circle to (1, 1) with a rotation of 90 degrees ends at (-1, 1). -/
theorem C79_turned_wrong : ∃ a1 a2,
    buildPath 'A' [1, 1, 90, 0, 1, 1, 1] .identity true .new =
      some (.ok (), ⟨⟨1, 1⟩, ⟨0, 0⟩, none, [.arc (1 * 1) (1 * 1) a1 a2 0]⟩) ∧
    pointAt ⟨0, 0⟩ (.arc (1 * 1) (1 * 1) a1 a2 0) 1 = ⟨-1, 1⟩ := by
  obtain ⟨a1, a2, h1, h2⟩ := C79_turned 1 90 0 1 1 1 one_pos .identity 1 one_pos
    ⟨by simp [Transform.identity], by simp [Transform.identity], by simp [Transform.identity]⟩ true .new
    (by simp [PathState.new]) (by
      simp only [Vec.length, PathState.new, vsub]
      rw [Real.sqrt_le_left (by norm_num)]
      norm_num)
  refine ⟨a1, a2, h1, ?_⟩
  rw [ident_mul, ident_mul, show (90 : ℝ) * Real.pi / 180 = Real.pi / 2 by ring] at h2
  rw [show PathState.new.pos = ⟨0, 0⟩ from rfl] at h2
  rw [h2]
  ext <;> simp [Transform.rotate]

/-- **C79.**  Under a reflection the direction of an arc is not reversed: a horizontal arc gives the
same segment as without the reflection, which is not its mirror image. -/
theorem C79_mirror (r large sweep x : ℝ) (hr : 0 < r) (first : Bool) (s : PathState)
    (hne : x ≠ s.pos.x) (hl : |x - s.pos.x| ≤ 2 * r) :
    ∃ seg, buildPath 'A' [r, r, 0, large, sweep, x, s.pos.y] .identity first s =
        some (.ok (), ⟨⟨x, s.pos.y⟩, s.start, s.lastControl, s.segs ++ [seg]⟩) ∧
      buildPath 'A' [r, r, 0, large, sweep, x, s.pos.y] (.scaleXy 1 (-1)) first s =
        some (.ok (), ⟨⟨x, s.pos.y⟩, s.start, s.lastControl, s.segs ++ [seg]⟩) ∧
      pointAt (Transform.scaleXy 1 (-1) * s.pos) seg (1 / 2) ≠
        Transform.scaleXy 1 (-1) * pointAt s.pos seg (1 / 2) := by
  have hne' : (⟨x, s.pos.y⟩ : Vec) ≠ s.pos := fun h => hne (congrArg Vec.x h)
  have hlen : ((⟨x, s.pos.y⟩ : Vec) - s.pos).length ≤ 2 * r := by
    simp only [Vec.length, vsub, sub_self, mul_zero, add_zero]
    rw [Real.sqrt_mul_self_eq_abs]
    exact hl
  have s1 : Similar .identity 1 :=
    ⟨by simp [Transform.identity], by simp [Transform.identity], by simp [Transform.identity]⟩
  have s2 : Similar (.scaleXy 1 (-1)) 1 :=
    ⟨by simp [Transform.scaleXy], by simp [Transform.scaleXy], by simp [Transform.scaleXy]⟩
  obtain ⟨a1, a2, e1, e2⟩ := (circle_arc r 0 large sweep x s.pos.y hr .identity 1 one_pos s1 first s hne').2 hlen
  refine ⟨_, e1, ?_, ?_⟩
  · rw [← e1, build_one_arc, build_one_arc]
    have hd : (Transform.scaleXy 1 (-1) * (⟨x, s.pos.y⟩ : Vec) - Transform.scaleXy 1 (-1) * s.pos) =
        Transform.identity * (⟨x, s.pos.y⟩ : Vec) - Transform.identity * s.pos := by
      ext <;> simp [Transform.scaleXy, Transform.identity]
    have : ∀ d a, a.rx = r → a.ry = r →
        arcSeg (.scaleXy 1 (-1)) d a = arcSeg .identity d a := by
      intro d a h1 h2
      unfold arcSeg
      rw [h1, h2, circle_ellipse one_pos hr s1, circle_ellipse one_pos hr s2]
    rw [hd, this _ _ rfl rfl]
  · have ex := e2.x
    have ey := e2.y
    simp [Transform.rotate, Transform.identity] at ex ey
    intro hpt
    have hy := congrArg Vec.y hpt
    simp [pointAt, Transform.scaleXy] at hy
    have hdx : Real.cos a2 - Real.cos a1 ≠ 0 := by
      intro h0
      apply hne
      have : r * (Real.cos a2 - Real.cos a1) = 0 := by rw [h0, mul_zero]
      linarith
    have hsin : Real.sin a2 = Real.sin a1 := by
      have : r * (Real.sin a2 - Real.sin a1) = 0 := by linarith
      rcases mul_eq_zero.1 this with h | h
      · exact absurd h hr.ne'
      · linarith
    have hmid : Real.sin (a1 + (a2 - a1) * 2⁻¹) = Real.sin a1 := by
      have : r * (Real.sin (a1 + (a2 - a1) * 2⁻¹) - Real.sin a1) = 0 := by linarith
      rcases mul_eq_zero.1 this with h | h
      · exact absurd h hr.ne'
      · linarith
    obtain ⟨m, hm⟩ : ∃ m, m = a1 + (a2 - a1) * 2⁻¹ := ⟨_, rfl⟩
    obtain ⟨w, hw⟩ : ∃ w, w = (a2 - a1) / 2 := ⟨_, rfl⟩
    rw [← hm] at hmid
    have ha1 : a1 = m - w := by rw [hm, hw]; ring
    have ha2 : a2 = m + w := by rw [hm, hw]; ring
    rw [ha1, ha2, Real.sin_add, Real.sin_sub] at hsin
    rw [ha1, Real.sin_sub] at hmid
    rw [ha1, ha2, Real.cos_add, Real.cos_sub] at hdx
    have h1 : Real.cos m * Real.sin w = 0 := by linarith
    have hsw : Real.sin m * Real.sin w ≠ 0 := by intro h; apply hdx; linarith
    have hs : Real.sin w ≠ 0 := fun h => hsw (by rw [h, mul_zero])
    have hsm : Real.sin m ≠ 0 := fun h => hsw (by rw [h, zero_mul])
    rw [h1, sub_zero] at hmid
    have hcw : Real.cos w = 1 := by
      apply mul_left_cancel₀ hsm; linarith
    have := Real.cos_sq_add_sin_sq w
    rw [hcw] at this
    apply hs
    have : Real.sin w ^ 2 = 0 := by linarith
    simpa using this

end StepperPaths.Props
