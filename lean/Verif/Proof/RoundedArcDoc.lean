import Verif.Proof.RoundedArcLoop

/-! Documents with arcs, with rounding. -/

namespace StepperPaths.Rounded.Acc
open Spec Coords Draw StepperPaths.Svg Context Spec.Svg

variable {fl : ℝ → ℝ} {lib : Lib}

theorem even_mul (hf : FloatRounding fl) {a b : Transform} (ha : EvenScale a) (hb : EvenScale b) : EvenScale (tmul fl a b) := by
  have z := fl_zero hf
  refine ⟨?_, ?_, ?_⟩
  · simp [tmul, ha.m1, hb.m1, z]
  · simp [tmul, ha.m2, hb.m2, z]
  · simp [tmul, ha.m1, hb.m2, ha.m2, hb.m1, ha.m3, hb.m3, z]

theorem even_fold (hf : FloatRounding fl) : ∀ (ts : List Transform) {t : Transform}, EvenScale t → (∀ u ∈ ts, EvenScale u) →
    EvenScale (ts.foldl (tmul fl) t)
  | [], _, h, _ => h
  | u :: ts, _, h, hu => even_fold hf ts (even_mul hf h (hu u (by simp))) fun v hv => hu v (by simp [hv])

theorem mapM_mem {α β : Type} {f : α → Option β} : ∀ {l : List α} {r : List β}, l.mapM f = some r → ∀ b ∈ r, ∃ a ∈ l, f a = some b
  | [], r, h, b, hb => by cases h; simp at hb
  | a :: l, r, h, b, hb => by
    rw [List.mapM_cons] at h
    simp only [Option.pure_def, Option.bind_eq_bind, Option.bind_eq_some_iff, Option.some.injEq] at h
    obtain ⟨b0, h0, r1, h1, rfl⟩ := h
    rcases List.mem_cons.1 hb with rfl | hb
    · exact ⟨a, by simp, h0⟩
    · obtain ⟨a1, ha, h2⟩ := mapM_mem h1 b hb
      exact ⟨a1, by simp [ha], h2⟩

theorem even_inside (hf : FloatRounding fl) {t u : Transform} {name : Name} {attrs : List Attr} (he : EvenElem fl lib name attrs)
    (ht : EvenScale t) (h : insideF fl lib t name attrs = some u) : EvenScale u := by
  unfold insideF at h
  simp only [Option.bind_eq_some_iff] at h
  obtain ⟨ts, h1, boxes, h2, h⟩ := h
  have e1 : EvenScale (ts.foldl (tmul fl) t) := even_fold hf ts ht fun v hv => by
    obtain ⟨text, htext, hv'⟩ := mapM_mem h1 v hv
    exact he.transforms text htext v hv'
  split at h
  · rename_i hsvg
    simp only [Option.bind_eq_some_iff, Option.map_eq_some_iff] at h
    obtain ⟨w, hw, v, hv, h⟩ := h
    have := he.box hsvg boxes h2 w (Option.bind_eq_some_iff.2 hw) v (Option.bind_eq_some_iff.2 hv)
    split at h
    · rename_i hb
      rw [hb] at this
      subst h
      exact even_mul hf e1 ⟨rfl, rfl, this.symm⟩
    · rename_i hb
      rw [hb] at this
      subst h
      exact even_mul hf e1 ⟨rfl, rfl, this.symm⟩
  · cases h
    exact e1

theorem paths_even (hf : FloatRounding fl) (keep : Filter) (f : Forest) {t : Transform} {p : List (Transform × List Char)} (he : f.Even fl lib keep)
    (ht : EvenScale t) (h : pathsF fl lib keep t f = some p) : ∀ x ∈ p, EvenScale x.1 := by
  induction f generalizing t p with
  | nil => cases h; simp
  | other rest ih => exact ih he ht h
  | elem name attrs kids rest ihk ihr =>
    obtain ⟨hk, hrest⟩ := he
    unfold pathsF at h
    simp only [Option.bind_eq_some_iff, Option.map_eq_some_iff] at h
    obtain ⟨p1, h1, p2, h2, rfl⟩ := h
    have g2 := ihr hrest ht h2
    have g1 : ∀ x ∈ p1, EvenScale x.1 := by
      split at h1
      · rename_i hkeep
        obtain ⟨he1, he2⟩ := hk hkeep
        split at h1
        · rename_i hns
          simp only [Option.bind_eq_some_iff] at h1
          obtain ⟨u, hu, h1⟩ := h1
          have eu := even_inside hf (he1 hns) ht hu
          split at h1
          · simp only [Option.bind_eq_some_iff, Option.map_eq_some_iff] at h1
            obtain ⟨d, -, p3, h3, rfl⟩ := h1
            intro x hx
            rcases List.mem_cons.1 hx with rfl | hx
            · exact eu
            · exact ihk he2 eu h3 x hx
          · exact ihk he2 eu h1
        · exact ihk he2 ht h1
      · cases h1; simp
    intro x hx
    rcases List.mem_append.1 hx with hx | hx
    · exact g1 x hx
    · exact g2 x hx

/-- A path with arcs. -/
theorem arcs_ok (hf : FloatRounding fl) (hl : FloatAngles lib) {h q : ℕ} {B : ℝ} {δ : Axis → ℝ} {d : Drawing} {s : Size} {t' : Transform}
    (hv : d.Valid) (hr : ArcsReadable h q B δ d s) (he : EvenScale t') (hn : Near t' d.tr s) :
    PathOk fl lib (s.units d.cmds q * h / 2 ^ 30 * B) (CleanSeg h q B (s.reach d.cmds)) δ d s t' := by
  obtain ⟨q20, h1, h2, B0⟩ := hr.positive
  have hun : s.units d.cmds q = (12 * s.count + (1 + numbers d.cmds) + 9) * q := by
    unfold Size.units; congr 1; omega
  have hfew := hr.units
  have hnum : numbers d.cmds ≤ 2 ^ 50 := by
    have e1 : 12 * s.count + (1 + numbers d.cmds) + 9 ≤ s.units d.cmds q := by rw [hun]; exact Nat.le_mul_of_pos_right _ (by omega)
    have e2 : s.units d.cmds q ≤ s.units d.cmds q * h := Nat.le_mul_of_pos_right _ h1
    omega
  refine ⟨hr.nested, hnum, by positivity, ?_, ?_⟩
  · intro c hc ha rel j P s1' s1 r g1 g2 g3 g4 g5 g6 g7 g8
    obtain ⟨k, θ, kp, t0, t1, t2, t3⟩ := hv.arcs ⟨c, hc, ha⟩
    have z1 : d.tr.m1 = 0 := by
      have := hn.m1.le
      rw [hr.even.m1] at this
      exact abs_nonpos_iff.1 this
    have z2 : d.tr.m2 = 0 := by
      have := hn.m2.le
      rw [hr.even.m2] at this
      exact abs_nonpos_iff.1 this
    have S : Setting fl (12 * s.count) (32 * s.count) (1 + numbers d.cmds) (extent d.cmds) t' d.tr s.bound :=
      ⟨hf, hn, by have := hr.nested; omega⟩
    have C : ArcSetting fl lib (12 * s.count) (1 + numbers d.cmds) q h t' d.tr := by
      refine ⟨hf, hl, he, ⟨z1, z2, t3.trans t0.symm⟩, ?_, hr.small, hr.large, q20, h1, h2, by rw [← hun]; exact hfew⟩
      have := hn.m0
      rw [hr.scale] at this
      exact this.floor' hr.small
    have hreach : s.reach d.cmds = coord (s.bound * (⟨extent d.cmds, extent d.cmds⟩ : Vec)) := by
      funext i; cases i <;> rfl
    rw [hreach] at g8
    rw [hun]
    exact arcs_near S C rel c.args.values (hr.circles c hc ha) g1 g2 g3 g4 g5 g6 g7 g8
  · intro s1 hb
    have hp : parsePath d.text d.tr .new = some (.done (.ok ()) s1) := by
      unfold Drawing.text
      rw [Props.C52_path d.cmds hv.cmds d.trail hv.trail]
      unfold Drawing.values at hb
      rw [hb]
    obtain ⟨e1, e2⟩ := hr.exact s1 hp
    refine ⟨fun seg hseg => ?_, e2⟩
    cases seg with
    | arc R R2 a1 a2 rot => exact e1 R R2 a1 a2 rot hseg
    | _ => trivial

end StepperPaths.Rounded.Acc
