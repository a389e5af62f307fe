import Verif.Proof.RoundedArcSeg
import Verif.Proof.RoundedPicture

/-! The arcs of a path, with rounding. -/

namespace StepperPaths.Rounded.Acc
open Spec Coords Draw StepperPaths.Svg Context Spec.Svg

variable {fl : ℝ → ℝ} {lib : Lib}

/-- Arcs of the builder that satisfy the conditions. -/
def CleanSeg (h q : ℕ) (B : ℝ) (reach : Axis → ℝ) : Seg → Prop
  | .arc R _ a1 a2 _ => CleanArc h q B reach R a1 a2
  | _ => True

/-- The setting for arcs. -/
structure ArcSetting (fl : ℝ → ℝ) (lib : Lib) (K J q h : ℕ) (tr' tr : Transform) : Prop where
  fl : FloatRounding fl
  lib : FloatAngles lib
  even' : EvenScale tr'
  even : EvenScale tr
  scale : App K 20 tr'.m0 tr.m0 tr.m0
  s0 : 1 / 2 ^ 20 ≤ tr.m0
  s1 : tr.m0 ≤ 2 ^ 20
  q20 : 20 ≤ q
  h1 : 1 ≤ h
  tight : h ≤ 2 ^ 10
  few : (K + J + 9) * q * h ≤ 2 ^ 20

section
variable {K J q h : ℕ} {tr' tr : Transform} (C : ArcSetting fl lib K J q h tr' tr)
include C

theorem ArcSetting.similar : Props.Similar tr tr.m0 ∧ 0 < tr.m0 := by
  refine ⟨⟨?_, ?_, ?_⟩, lt_of_lt_of_le (by positivity) C.s0⟩
  · rw [C.even.m1]; ring
  · rw [C.even.m2, C.even.m3]; ring
  · rw [C.even.m1, C.even.m2]; ring

omit C in
/-- Arcs with such angles are the same. -/
theorem angles_same {r dx dy a1 a2 b1 b2 : ℝ} {large sweep : Prop} (hr : 0 < r) (hd : ¬ (dx = 0 ∧ dy = 0))
    (h : Props.ArcAngles r r dx dy large sweep a1 a2) (h' : Props.ArcAngles r r dx dy large sweep b1 b2) (p : Vec) (rot rot' u : ℝ) :
    pointAt p (.arc r r a1 a2 rot) u = pointAt p (.arc r r b1 b2 rot') u := by
  have hc : Real.cos a2 - Real.cos a1 = Real.cos b2 - Real.cos b1 := by
    apply mul_left_cancel₀ hr.ne'
    have := h.x; have := h'.x
    linarith
  have hs : Real.sin a2 - Real.sin a1 = Real.sin b2 - Real.sin b1 := by
    apply mul_left_cancel₀ hr.ne'
    have := h.y; have := h'.y
    linarith
  have hne : Real.cos a2 - Real.cos a1 ≠ 0 ∨ Real.sin a2 - Real.sin a1 ≠ 0 := by
    by_contra hcon
    push Not at hcon
    refine hd ⟨?_, ?_⟩
    · rw [← h.x, ← mul_sub, hcon.1, mul_zero]
    · rw [← h.y, ← mul_sub, hcon.2, mul_zero]
  have dir : ∀ {x y : ℝ}, Props.ArcAngles r r dx dy large sweep x y → (x < y ↔ sweep) := fun h => by
    refine ⟨fun hlt => ?_, h.pos⟩
    by_contra hsw
    exact absurd hlt (not_lt.2 (h.neg hsw).le)
  have hl : Real.pi ≤ |a2 - a1| ∧ Real.pi ≤ |b2 - b1| ∨ |a2 - a1| ≤ Real.pi ∧ |b2 - b1| ≤ Real.pi := by
    by_cases hL : large
    · exact .inl ⟨h.long hL, h'.long hL⟩
    · exact .inr ⟨h.short hL, h'.short hL⟩
  have same := Picture.arc_same hc hs hne ((dir h).trans (dir h').symm) h.turn h'.turn hl
  have k1 := same u
  have k0 := same 0
  rw [mul_zero, mul_zero, add_zero, add_zero] at k0
  ext
  · simp only [pointAt, k1.1, k0.1]
  · simp only [pointAt, k1.2, k0.2]

/-- One arc. -/
theorem arc_one {r' r : ℝ} {N : ℕ} (hr : App 1 20 r' r r) (r0 : 1 / 2 ^ 10 ≤ r) (r1 : r ≤ 2 ^ 20) {d' d : Vec} {reach : Axis → ℝ}
    (hd : VApp (K + J + 9) N d' d ⟨2 * reach .x, 2 * reach .y⟩) (fx : fl d'.x = d'.x) (fy : fl d'.y = d'.y) {large sweep : Prop} {seg : Seg}
    (he : arcSeg tr d ⟨r, r, 0, large, sweep⟩ = some (.ok seg)) {B : ℝ} (hG : CleanSeg h q B reach seg) :
    ∃ R' b1' b2' R a1 a2, arcSegF fl lib tr' d' ⟨r', r', 0, large, sweep⟩ = some (.ok (.arc R' R' b1' b2' 0)) ∧
      seg = .arc R R a1 a2 0 ∧ ArcsNear (((K + J + 9) * q : ℕ) * h / 2 ^ 30 * B) (.arc R' R' b1' b2' 0) (.arc R R a1 a2 0) := by
  obtain ⟨sim, kp⟩ := C.similar
  have rp : 0 < r := lt_of_lt_of_le (by positivity) r0
  have r0' : (1 : ℝ) / 2 ^ 20 ≤ r := le_trans (by norm_num) r0
  have Rp : 0 < tr.m0 * r := by positivity
  have hd0 : ¬ (d.x = 0 ∧ d.y = 0) := by
    intro h0
    unfold arcSeg at he
    rw [if_pos h0] at he
    cases he
  obtain ⟨t1, t2⟩ := Props.arcSeg_spec (a := ⟨r, r, 0, large, sweep⟩) hd0 Rp Rp (Props.circle_ellipse kp rp sim) (v := d)
    (by ext <;> simp [Transform.rotate])
  have fits : (d.x / (2 * (tr.m0 * r))) ^ 2 + (d.y / (2 * (tr.m0 * r))) ^ 2 ≤ 1 := by
    by_contra hcon
    rw [t1 (not_le.1 hcon)] at he
    cases he
  obtain ⟨a1, a2, e1, ang⟩ := t2 fits
  rw [e1] at he
  obtain rfl : Seg.arc (tr.m0 * r) (tr.m0 * r) a1 a2 0 = seg := by simpa using he
  obtain ⟨g1, g2, g3, g4⟩ : CleanArc h q B reach (tr.m0 * r) a1 a2 := hG
  -- the chord
  obtain ⟨D, hD⟩ : ∃ D, D = arcChord (tr.m0 * r) a1 a2 := ⟨_, rfl⟩
  rw [← hD] at g2 g3 g4
  have len : D ^ 2 = d.x ^ 2 + d.y ^ 2 := by
    rw [hD, arcChord, Real.sq_sqrt (by positivity), ang.x, ang.y]
  have D0 : 0 ≤ D := by rw [hD]; exact Real.sqrt_nonneg _
  have ax : |d.x| ≤ D := abs_le_of_sq_le_sq (by nlinarith [sq_nonneg d.y]) D0
  have ay : |d.y| ≤ D := abs_le_of_sq_le_sq (by nlinarith [sq_nonneg d.x]) D0
  have Dm : (1 : ℝ) / 2 ^ 60 ≤ D := by
    refine le_trans ?_ g2
    rw [le_div_iff₀ (by positivity)]
    have := mul_le_mul C.s0 r0 (by positivity) kp.le
    refine le_trans ?_ this
    norm_num
  have hx : App ((K + J + 9) * q) 60 d'.x d.x D := hd.x.rel ax q (g3 .x) Dm
  have hy : App ((K + J + 9) * q) 60 d'.y d.y D := hd.y.rel ay q (g3 .y) Dm
  have hq := C.q20
  have hK : 8 * 1 + 20 * K + 24 ≤ (K + J + 9) * q := by nlinarith [Nat.zero_le J, Nat.zero_le K]
  have long : r * tr.m0 / 2 ^ 10 ≤ D := by rwa [mul_comm r]
  have short : D ^ 2 * h ^ 2 ≤ 4 * (r * tr.m0) ^ 2 * (h ^ 2 - 1) := by
    refine g4.trans (le_of_eq ?_); ring
  obtain ⟨R', b1', b2', b1, b2, f1, f2, f3, f4, f5⟩ := arc_near C.fl C.lib large sweep hr C.scale rfl C.even'.m1 C.even'.m2 C.even'.m3
    r0' r1 C.s0 C.s1 hx hy fx fy len long short hK C.h1 C.few C.tight
  refine ⟨R', b1', b2', tr.m0 * r, a1, a2, f1, rfl, fun u u0 u1 i => ?_⟩
  rw [mul_comm r] at f2 f3
  rw [angles_same Rp hd0 ang f3 ⟨0, 0⟩ 0 0 u]
  refine (arc_points f2.err Rp.le f4 f5 u0 u1 ⟨0, 0⟩ i 0 0).trans ?_
  have kh : ((K + J + 9) * q : ℕ) * h ≤ 2 ^ 20 := C.few
  have hh : (1 : ℝ) ≤ h := by exact_mod_cast C.h1
  generalize (K + J + 9) * q = k at *
  have kk : k ≤ 2 ^ 20 := (Nat.le_mul_of_pos_right k C.h1).trans kh
  have gk : g k ≤ 2 * k / 2 ^ 52 := g_le (by exact_mod_cast kk.trans (by norm_num))
  have k0 : (0 : ℝ) ≤ k := Nat.cast_nonneg k
  have h1 : 2 * g k + 2 * (k * h / 2 ^ 32) ≤ k * h / 2 ^ 30 := by
    have : (k : ℝ) ≤ k * h := le_mul_of_one_le_right k0 hh
    have e1 : (2 : ℝ) * (2 * k / 2 ^ 52) ≤ 2 * (k * h / 2 ^ 32) := by
      rw [mul_div_assoc', mul_div_assoc', div_le_div_iff₀ (by positivity) (by positivity)]
      nlinarith
    have e2 : (k : ℝ) * h / 2 ^ 30 = 4 * (k * h / 2 ^ 32) := by ring
    linarith
  refine (mul_le_mul_of_nonneg_right h1 Rp.le).trans (mul_le_mul_of_nonneg_left g1 ?_)
  positivity

end

/-- The arcs of a command. -/
theorem arcs_near {K N J q h : ℕ} {T B : ℝ} {tr' tr A : Transform} (S : Setting fl K N J T tr' tr A) (C : ArcSetting fl lib K J q h tr' tr)
    (rel : Bool) : ∀ (args : List ℚ), CircleArgs args → ∀ {j : ℕ} {P : ℝ} {s' s r : PathState}, SNear j P s' s → 1 ≤ j → 0 ≤ P →
    j + args.length ≤ J → P + total args ≤ T → args.length % 7 = 0 → arcLoop rel tr (args.map fun q : ℚ => (q : ℝ)) s = some (.ok (), r) →
    (∀ seg ∈ r.segs, CleanSeg h q B (coord (A * (⟨T, T⟩ : Vec))) seg) →
    ∃ r', arcLoopF fl lib rel tr' (args.map fun q : ℚ => fl (q : ℝ)) s' = some (.ok (), r') ∧
      Ext (K + J + 9) (N + 11) (A * (⟨T, T⟩ : Vec)) (((K + J + 9) * q : ℕ) * h / 2 ^ 30 * B) s' s r' r ∧
      SNear (j + args.length) (P + total args) r' r
  | [], _, j, P, s', s, r, hs, _, _, _, _, _, hb, _ => by
    cases hb
    exact ⟨s', rfl, Ext.refl _ _, by simpa [total] using hs⟩
  | [_], _, _, _, _, _, _, _, _, _, _, _, h7, _, _ => by simp at h7
  | [_, _], _, _, _, _, _, _, _, _, _, _, _, h7, _, _ => by simp at h7
  | [_, _, _], _, _, _, _, _, _, _, _, _, _, _, h7, _, _ => by simp at h7
  | [_, _, _, _], _, _, _, _, _, _, _, _, _, _, _, h7, _, _ => by simp at h7
  | [_, _, _, _, _], _, _, _, _, _, _, _, _, _, _, _, h7, _, _ => by simp at h7
  | [_, _, _, _, _, _], _, _, _, _, _, _, _, _, _, _, _, h7, _, _ => by simp at h7
  | rx :: ry :: rot :: large :: sweep :: x :: y :: args, hc, j, P, s', s, r, hs, hj, hP, hJ, hT, h7, hb, hG => by
    obtain ⟨⟨rfl, rfl, r0, r1, hlarge, hsweep⟩, hc⟩ := hc
    simp only [total_cons] at hT ⊢
    simp only [List.length_cons] at hJ h7 ⊢
    have m1 := mag_nonneg ry
    have m3 := mag_nonneg 0
    have m4 := mag_nonneg large
    have m5 := mag_nonneg sweep
    have m6 := mag_nonneg x
    have m7 := mag_nonneg y
    have ha := total_nonneg args
    have z := fl_zero S.fl
    have o : fl 1 = 1 := by simpa using S.fl.int 1 (by norm_num)
    have flag : ∀ f : ℚ, f = 0 ∨ f = 1 → (fl (f : ℝ) ≠ 0) = ((f : ℝ) ≠ 0) := by
      rintro f (rfl | rfl)
      · simp [z]
      · simp [o]
    simp only [List.map_cons, arcLoop, arcLoopF] at hb ⊢
    simp only [flag large hlarge, flag sweep hsweep, Rat.cast_zero, z, zero_mul, zero_div] at hb ⊢
    -- the points
    have hpos := S.target rel x y (fun _ => hs.pos) hj hP
    have hpos : VApp (j + 1) 10 (targetF fl rel s'.pos ⟨fl x, fl y⟩) (Svg.target rel s.pos ⟨x, y⟩) ⟨P + (mag x + mag y), P + (mag x + mag y)⟩ :=
      hpos.wide (by simp only; linarith) (by simp only; linarith)
    have hold : VApp (j + 1) 10 s'.pos s.pos ⟨P + (mag x + mag y), P + (mag x + mag y)⟩ :=
      (hs.pos.mono (Nat.le_succ j) le_rfl).wide (by simp only; linarith) (by simp only; linarith)
    have q1 := S.point hpos (by linarith)
    have q0 := S.point hold (by linarith)
    have comm' : (if rel = true then tapply fl tr' (vadd fl ⟨fl x, fl y⟩ s'.pos) else tapply fl tr' ⟨fl x, fl y⟩) =
        tapply fl tr' (targetF fl rel s'.pos ⟨fl x, fl y⟩) := by
      cases rel
      · rfl
      · simp [targetF, vadd, add_comm]
    have comm : (if rel = true then tr * ((⟨x, y⟩ : Vec) + s.pos) else tr * (⟨x, y⟩ : Vec)) = tr * Svg.target rel s.pos ⟨x, y⟩ := by
      cases rel
      · rfl
      · simp [Svg.target]
        rw [add_comm (x : ℝ), add_comm (y : ℝ)]
        simp
    rw [comm] at hb
    rw [comm']
    have hd := (S.diff q1 q0).mono (show _ ≤ K + J + 9 by omega) (le_refl (N + 10))
    have fx : fl (vsub fl (tapply fl tr' (targetF fl rel s'.pos ⟨fl x, fl y⟩)) (tapply fl tr' s'.pos)).x = _ := S.fl.idem _
    have fy : fl (vsub fl (tapply fl tr' (targetF fl rel s'.pos ⟨fl x, fl y⟩)) (tapply fl tr' s'.pos)).y = _ := S.fl.idem _
    have hry : App 1 20 (fl ry) ry ry := by
      have h0 := mag_app S.fl ry
      have rp : (0 : ℝ) < ry := lt_of_lt_of_le (by positivity) r0
      have : mag ry = ry := by
        unfold mag
        rw [if_neg (by rintro rfl; simp at rp), abs_of_pos rp, max_eq_left r0]
      rw [this] at h0
      exact h0.mono le_rfl (by norm_num)
    generalize targetF fl rel s'.pos ⟨fl x, fl y⟩ = p' at *
    generalize Svg.target rel s.pos ⟨x, y⟩ = p at *
    split at hb
    · cases hb
    · cases hb
    · rename_i seg hseg
      have hgs : CleanSeg h q B (coord (A * (⟨T, T⟩ : Vec))) seg :=
        hG seg ((Grow.arc rel _ _ hb).subset (by simp [PathState.push]))
      obtain ⟨R', b1', b2', R, a1, a2, f1, rfl, f3⟩ := arc_one C hry r0 r1 (reach := coord (A * (⟨T, T⟩ : Vec))) hd fx fy hseg hgs
      rw [f1]
      simp only
      have hn : SNear (j + 7) (P + (mag x + mag y)) ({ s'.push (.arc R' R' b1' b2' 0) with pos := p' } : PathState)
          ({ s.push (.arc R R a1 a2 0) with pos := p } : PathState) :=
        ⟨hpos.mono (by omega) le_rfl, (hs.start.mono (by omega) le_rfl).wide (by simp only; linarith) (by simp only; linarith)⟩
      obtain ⟨r', h1, h2, h3⟩ := arcs_near S C rel args hc hn (by omega) (by linarith) (by omega) (by linarith) (by omega) hb hG
      refine ⟨r', h1, Ext.trans (Ext.one (by rfl) (by rfl) (.arc f3)) h2, h3.mono (by omega) (by linarith)⟩

end StepperPaths.Rounded.Acc
