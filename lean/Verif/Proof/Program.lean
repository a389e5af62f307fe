import Verif.Model.Program
import Verif.Proof.DrawReturns
import Verif.Props.Draw

/-! The program `svg_path`: several passes over the picture, and the way home. -/

namespace StepperPaths.Program
open Coords Curves Context IntegerCurve Spec Props Draw

theorem step_ok_of {aMax vMax : Axis → ℤ} {e : Env} {v : ℝ} {S : Vec → Prop} {B : Axis → ℝ} {N : ℕ}
    {ℓ rest : ℝ} {seg : Seg} {segs : List Seg} {s s1 : Pen} (hM : Machine aMax vMax) (hR : Reachable vMax e v B N)
    (hS : InRegion e S B ℓ (seg :: segs)) (hℓ : 0 ≤ ℓ) (hrest : 0 ≤ rest)
    (h : PenOK aMax vMax e v S B N (ℓ + rest) s) (hs : s.step e v seg = some s1) :
    PenOK aMax vMax e v S B N rest s1 := by
  obtain ⟨s2, h1, h2⟩ := step_ok hM hR hS hℓ hrest h
  rw [hs] at h1
  cases h1
  exact h2

theorem region_tail {e : Env} {S : Vec → Prop} {B : Axis → ℝ} {ℓ : ℝ} {seg : Seg} {segs : List Seg}
    (hS : InRegion e S B ℓ (seg :: segs)) : InRegion e S B ℓ segs :=
  ⟨hS.box, fun p hp => hS.move p (List.mem_cons_of_mem _ hp),
    fun p hp => hS.short p (List.mem_cons_of_mem _ hp),
    fun seg hs => hS.draw seg (List.mem_cons_of_mem _ hs)⟩

theorem near_big {aMax vMax : Axis → ℤ} {e : Env} {v : ℝ} {S : Vec → Prop} {B : Axis → ℝ} {N : ℕ}
    (hM : Machine aMax vMax) (hR : Reachable vMax e v B N)
    (box : ∀ p, S p → ∀ i, |coord p i * e.stepScale i| ≤ B i) {p : Vec} (hp : S p) (i : Axis) :
    0 ≤ B i ∧ B i ≤ 2 ^ 46 ∧ B i + 3 / 2 + 2 * vMax i * N ≤ 2 ^ 60 := by
  have h1 := hR.near i
  have h2 := hM.v2 i
  have h2' : (vMax i : ℝ) < 2 ^ 30 := by exact_mod_cast h2
  have h3 := abs_nonneg (coord p i * e.stepScale i)
  have h4 := box _ hp i
  have h5 : (0 : ℝ) ≤ 2 * vMax i * N := by
    have : (1 : ℝ) ≤ vMax i := by exact_mod_cast hM.v1 i
    positivity
  norm_num at *
  refine ⟨?_, ?_, ?_⟩ <;> linarith

/-- As `finish_timeline`, where the region bounds the positions. -/
theorem finish_played {aMax vMax : Axis → ℤ} {e : Env} {v : ℝ} {S : Vec → Prop} {B : Axis → ℝ} {N : ℕ}
    {ℓ : ℝ} {segs : List Seg} {s s' : Pen} (hM : Machine aMax vMax) (hR : Reachable vMax e v B N)
    (hS : InRegion e S B ℓ segs) (hℓ : 0 ≤ ℓ) (h : PenOK aMax vMax e v S B N (segs.length * ℓ) s)
    (hf : s.finish e v segs = some s') :
    ∃ l, s'.drawn = s.drawn ++ l ∧
      Timeline e v s.ctx.curveWeight aMax vMax s'.ctx.events s'.maxErr (s.ctx.channels .x).ticks
        (strokes l) (s'.ctx.channels .x).ticks ∧
      ∀ i, 0 ≤ s.maxErr i → s'.maxErr i = s.maxErr i ∨
        Worst e v s.ctx.curveWeight aMax vMax s'.ctx.events s'.maxErr (s.ctx.channels .x).ticks
          (strokes l) (s'.ctx.channels .x).ticks i := by
  have hst : ∀ st ∈ s'.drawn, st.2 ≠ [] → ∀ i, |coord st.1 i * e.stepScale i| ≤ 2 ^ 60 := by
    intro st hst hne i
    obtain ⟨s2, h2, h3⟩ := finish_ok hM hR hS hℓ h
    rw [hf] at h2
    cases h2
    have hp := h3.drawn st hst hne
    have h1 := hS.box _ hp i
    have h2 := (near_big hM hR hS.box hp i).2.1
    norm_num at *
    linarith
  have hv' : ∀ i, vMax i ≤ 2 ^ 59 := fun i => by have := hM.v2 i; norm_num at *; omega
  have now : ∀ {s : Pen} {r : ℝ}, PenOK aMax vMax e v S B N r s → ∀ i, |(s.ctx.channels i).pos| ≤ 2 ^ 61 := by
    intro s r h i
    have : |((s.ctx.channels i).pos : ℝ)| ≤ 2 ^ 61 := by
      have h1 := h.pos i
      have h2 := (near_big hM hR hS.box h.start i).2.2
      norm_num at *
      linarith
    exact_mod_cast this
  have hd : ∀ {s : Pen} {r : ℝ}, PenOK aMax vMax e v S B N r s → s.curves ≠ [] →
      ∀ i, |coord ((e.concatInfo s.curves).value 0).2 i * v * e.vScale i| + 1 / 2 ≤ vMax i := by
    intro s r h _ i
    have h1 := concat_dir (e := e) (c := s.curves) zero_le_one i (fun part hpart x => h.dir part hpart x i) 0
    refine le_trans ?_ (hR.speed i)
    rw [mul_assoc, abs_mul]
    have := mul_le_mul_of_nonneg_right h1 (abs_nonneg (v * e.vScale i))
    linarith
  induction segs generalizing s with
  | nil =>
    rw [finish_nil] at hf
    have hl : Later s' s' := ⟨Past.refl _, fun _ => le_rfl, [], by simp⟩
    obtain ⟨-, -, ht, hw⟩ := flush_timeline h.sync hM.a1 hM.v1 hv' h.vel hf hl (now h) hst (hd h)
    obtain ⟨err, -, h2⟩ := flush_eq hf
    refine ⟨[(s.start, s.curves)], by rw [h2], ?_, fun i hi => hw i hi rfl⟩
    have := ht (.nil _)
    rwa [List.append_nil] at this
  | cons seg segs ih =>
    obtain ⟨s1, h1, h2⟩ := finish_cons.1 hf
    have h1' := step_ok_of (rest := segs.length * ℓ) hM hR hS hℓ (by positivity) (by
      have e1 : ℓ + (segs.length : ℝ) * ℓ = ((seg :: segs).length : ℝ) * ℓ := by
        push_cast [List.length_cons]; ring
      rw [e1]; exact h) h1
    obtain ⟨hs2, hl2⟩ := finish_later h1'.sync h2
    obtain ⟨l, e1, ht, hw⟩ := ih (s := s1) (region_tail hS) h1' h2
    rcases step_flush h1 with ⟨q1, q2, q3⟩ | ⟨s2, h0, q1, q2, q3⟩
    · rw [q1] at ht hw
      rw [q2] at hw
      rw [q3] at e1
      exact ⟨l, e1, ht, hw⟩
    · have hl' : Later s2 s' := ⟨by rw [← q1]; exact hl2.past, fun i => by rw [← q2]; exact hl2.err i,
        by rw [← q3]; exact hl2.drawn⟩
      obtain ⟨hc1, hp1, ht1, hw1⟩ := flush_timeline h.sync hM.a1 hM.v1 hv' h.vel h0 hl' (now h) hst (hd h)
      obtain ⟨err, -, h3⟩ := flush_eq h0
      have es : strokes ((s.start, s.curves) :: l) = strokes [(s.start, s.curves)] ++ strokes l := by
        rw [← strokes_append]; rfl
      refine ⟨(s.start, s.curves) :: l, ?_, ?_, fun i hi => ?_⟩
      · rw [e1, q3, h3]
        simp
      · rw [q1, (flush_later h.sync h0).2.past.cw] at ht
        have := ht1 ht
        rwa [← strokes_append] at this
      · have hle := (flush_later h.sync h0).2
        rw [q1, q2, hle.past.cw] at hw
        rcases hw i (hi.trans (hle.err i)) with h5 | ⟨t1, a, b, st, k, w1, w2, w3, w4, w5, w6⟩
        · rcases hw1 i hi h5 with h6 | ⟨t1, a, b, st, k, w1, w2, w3, w4, w5, w6⟩
          · exact .inl h6
          · exact .inr ⟨t1, a, b, st, k, w1, w2.trans hl'.past.ticks, by rw [es]; exact List.mem_append_left _ w3,
              w4, w5, w6⟩
        · exact .inr ⟨t1, a, b, st, k, hle.past.ticks.trans w1, w2, by rw [es]; exact List.mem_append_right _ w3,
            w4, w5, w6⟩

/-- What holds between two passes. -/
structure Between (aMax vMax : Axis → ℤ) (B : Axis → ℝ) (N : ℕ) (c : Ctx) : Prop where
  sync : Sync aMax vMax c
  vel : ∀ i, |(c.channels i).v| ≤ vMax i
  pos : ∀ i, |((c.channels i).pos : ℝ)| ≤ B i + 3 / 2 + 2 * vMax i * N

/-- The first move of the picture leads into the region. -/
theorem start_ok {aMax vMax : Axis → ℤ} {e : Env} {v : ℝ} {S : Vec → Prop} {B : Axis → ℝ} {N : ℕ}
    {ℓ : ℝ} {p0 : Vec} {rest : List Seg} {c : Ctx} (hM : Machine aMax vMax) (hR : Reachable vMax e v B N)
    (hsc : ∀ i, e.stepScale i ≠ 0) (hS : InRegion e S B ℓ (.goTo p0 :: rest)) (hℓ : 0 ≤ ℓ)
    (hl : (Seg.goTo p0 :: rest).length * ℓ ≤ v * N)
    (snap : ∀ q, (∀ i, coord q i * e.stepScale i = Draw.round (coord p0 i * e.stepScale i)) → S q)
    (h : Between aMax vMax B N c) :
    ∃ s segs, (Pen.init e c).finish e v (.goTo p0 :: rest) = s.finish e v segs ∧ InRegion e S B ℓ segs ∧
      PenOK aMax vMax e v S B N (segs.length * ℓ) s ∧ s.ctx = c ∧ strokes s.drawn = [] := by
  have hp := hS.move p0 List.mem_cons_self
  have b60 : ∀ i, |coord p0 i * e.stepScale i| ≤ 2 ^ 60 := by
    intro i
    have h1 := hS.box _ hp i
    have h2 := (near_big hM hR hS.box hp i).2.1
    norm_num at *
    linarith
  by_cases h0 : S (startOf e c)
  · exact ⟨Pen.init e c, _, rfl, hS, ⟨h.sync, h.vel, h.pos, h0, h0, by simp [Pen.init],
      by simp [Pen.init, Concat.totalLength], by simpa [Pen.init, Concat.totalLength] using hl,
      by simp [Pen.init]⟩, rfl, rfl⟩
  · have hb : (Pen.init e c).atMachine e p0 = some false := by
      obtain ⟨b, hb⟩ : ∃ b, (Pen.init e c).atMachine e p0 = some b := by
        unfold Pen.atMachine
        have e1 := toSteps_ok (b60 .x)
        have e2 := toSteps_ok (b60 .y)
        simp only [coord] at e1 e2
        simp only [e1, e2, Option.bind_eq_bind, Option.bind_some]
        split
        · exact ⟨_, rfl⟩
        · exact ⟨_, rfl⟩
      cases b
      · exact hb
      · refine absurd (snap _ fun i => ?_) h0
        have h1 := atMachine_true hb i
        rw [← h1]
        cases i <;> simp only [startOf, coord, Env.coordFromSteps, Pen.init] <;> exact div_mul_cancel₀ _ (hsc _)
    have hflush : (Pen.init e c).flush e v = some { Pen.init e c with
        maxErr := fun _ => accMax 0 0, drawn := [(startOf e c, [])] } := by
      unfold Pen.flush drawCurve
      simp [Pen.init, startOf]
    refine ⟨{ Pen.init e c with maxErr := fun _ => accMax 0 0, drawn := [(startOf e c, [])],
                                current := p0, start := p0, prevDir := none }, rest, ?_, region_tail hS, ?_, rfl, ?_⟩
    · unfold Pen.finish
      rw [Pen.run]
      simp only [Pen.step, Pen.goTo, hb, Option.bind_eq_bind, Option.bind_some, Bool.false_eq_true, if_false, hflush]
      rfl
    · refine ⟨h.sync, h.vel, h.pos, hp, hp, by simp [Pen.init], by simp [Pen.init, Concat.totalLength], ?_,
        by simp⟩
      simp only [Pen.init, Concat.totalLength, List.getLast?_nil, zero_add]
      have : ((Seg.goTo p0 :: rest).length : ℝ) = rest.length + 1 := by push_cast [List.length_cons]; ring
      rw [this] at hl
      simp
      linarith
    · simp [strokes]

end StepperPaths.Program
