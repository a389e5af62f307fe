import Verif.Proof.InsideScan
import Verif.Proof.AnyDraw
import Verif.Spec.Moves

/-! Where the machine is during the moves of a drawing. -/

namespace StepperPaths.InsideDraw
open Context Control Spec IntegerCurve Props Proof
open Draw (Past)

variable {aMax vMax : Axis → ℤ} {w : ℤ}

/-- All that has happened so far. -/
def Straight (aMax : Axis → ℤ) (w : ℤ) (c : Ctx) : Prop :=
  ∀ τ < (c.channels .x).ticks, (∀ w0, weightAt w0 c.events τ = w) ∨
    ∃ t a, t ≤ τ ∧ τ < a ∧ a ≤ (c.channels .x).ticks ∧ DirectMove aMax c.events t a

theorem DirectMove.mono {es es' : List Event} {t a : ℕ} (h : DirectMove aMax es t a) (hacc : ∀ i, ∀ τ < a, accAt i es' τ = accAt i es τ)
    (hw : ∀ w0, ∀ τ < a, weightAt w0 es' τ = weightAt w0 es τ) : DirectMove aMax es' t a := by
  refine ⟨fun w0 τ h1 h2 => (hw w0 τ h2).trans (h.1 w0 τ h1 h2), fun i τ h1 h2 => ?_⟩
  have := h.2 i τ h1 h2
  rw [Raster.posAt_congr (hacc i) (h1.trans h2), Raster.posAt_congr (hacc i) le_rfl, Raster.posAt_congr (hacc i) h2,
    Raster.velAt_congr (hacc i) (h1.trans h2), Raster.velAt_congr (hacc i) le_rfl]
  exact this

theorem Straight.past {c c' : Ctx} (S : Sync aMax vMax c) (h : Straight aMax w c) (P : Past c c') (τ : ℕ) (hτ : τ < (c.channels .x).ticks) :
    (∀ w0, weightAt w0 c'.events τ = w) ∨
      ∃ t a, t ≤ τ ∧ τ < a ∧ a ≤ (c'.channels .x).ticks ∧ DirectMove aMax c'.events t a := by
  rcases h τ hτ with h | ⟨t, a, h1, h2, h3, h4⟩
  · exact .inl fun w0 => (P.weight w0 τ hτ).trans (h w0)
  · refine .inr ⟨t, a, h1, h2, h3.trans P.ticks, DirectMove.mono h4 (fun i σ hσ => P.acc i σ ?_) fun w0 σ hσ => P.weight w0 σ (by omega)⟩
    rw [Raster.same_ticks S]
    omega

theorem Straight.same {c c' : Ctx} (S : Sync aMax vMax c) (h : Straight aMax w c) (P : Past c c') (e : c'.channels = c.channels) :
    Straight aMax w c' := by
  intro τ hτ
  rw [e] at hτ
  exact h.past S P τ hτ

/-- A move. -/
theorem goto_direct (L : Limits aMax vMax) {c c' : Ctx} (A : AnyDraw.Along aMax vMax w c) {x y vx vy : ℤ}
    (h : Checked.stepGotoSpeed c x y vx vy = some c') : DirectMove aMax c'.events (c.channels .x).ticks (c'.channels .x).ticks := by
  obtain ⟨S', P⟩ := Raster.goto_past A.sync (Checked.stepGotoSpeed_le _ _ _ _ _ _ h)
  obtain ⟨-, -, -, -, -, -, -, -, hw⟩ := goto_spec A.sync.inv.1 (Checked.stepGotoSpeed_le _ _ _ _ _ _ h)
  obtain ⟨-, T, -⟩ := A.sync.reach.inv
  obtain ⟨-, T', -⟩ := S'.reach.inv
  refine ⟨fun w0 τ h1 h2 => by rw [hw, if_neg (by omega), A.mw], fun i τ h1 h2 => ?_⟩
  obtain ⟨-, k1, k2⟩ := InsideScan.goto_inside L A.sync A.now h i
  have e1 : posAt i c'.events (c.channels .x).ticks = (c.channels i).pos := by
    rw [AnyDraw.past_pos A.sync P i le_rfl, AnyDraw.pos_now A.sync i]
  have e2 : posAt i c'.events (c'.channels .x).ticks = (c'.channels i).pos := AnyDraw.pos_now S' i
  have e3 : velAt i c'.events (c.channels .x).ticks = (c.channels i).v := by
    rw [AnyDraw.past_vel A.sync P i le_rfl, T.vel i, Raster.same_ticks A.sync i]
  have e4 : velAt i c'.events (c'.channels .x).ticks = (c'.channels i).v := by
    rw [T'.vel i, Raster.same_ticks S' i]
  rw [e1, e2, e3, e4]
  exact k2 τ h1 h2 _ (le_max_left _ _) (by rw [← k1]; exact le_max_right _ _)

/-- Between two calls. -/
def Moves (aMax vMax : Axis → ℤ) (w : ℤ) (c : Ctx) : Prop := AnyDraw.Along aMax vMax w c ∧ Straight aMax w c

/-- During a stroke. -/
def Strokes (aMax vMax : Axis → ℤ) (w : ℤ) (c : Ctx) : Prop :=
  Moves aMax vMax w c ∧ ∀ w0, ∀ τ ≥ (c.channels .x).ticks, weightAt w0 c.events τ = w

theorem draws (L : Limits aMax vMax) (w : ℤ) : Draws (Moves aMax vMax w) (Strokes aMax vMax w) where
  weak h := h.1
  move {c c'} h hc := by
    obtain ⟨-, q1, p, -⟩ := Draw.weight_now h.1.sync hc
    exact ⟨(AnyDraw.Along.draws L w).move h.1 hc, h.2.same h.1.sync p q1⟩
  curve {c c'} h hc := by
    obtain ⟨-, q1, p, -, -, -, q4⟩ := Draw.weight_now h.1.sync hc
    refine ⟨⟨(AnyDraw.Along.draws L w).curve h.1 hc, h.2.same h.1.sync p q1⟩, fun w0 τ hτ => ?_⟩
    rw [q1] at hτ
    rw [q4, if_neg (by omega), h.1.cw]
  goto {c c' x y vx vy} h hc := by
    obtain ⟨-, p⟩ := Raster.goto_past h.1.sync (Checked.stepGotoSpeed_le _ _ _ _ _ _ hc)
    refine ⟨(AnyDraw.Along.draws L w).goto h.1 hc, fun τ hτ => ?_⟩
    by_cases hb : τ < (c.channels .x).ticks
    · exact h.2.past h.1.sync p τ hb
    · exact .inr ⟨_, _, by omega, hτ, le_rfl, goto_direct L h.1 hc⟩
  tick {c c' ax ay} h ha hc := by
    have A := (AnyDraw.Along.draws L w).tick h.1.1 ha hc
    obtain ⟨bx, yb, -, -, hc⟩ := approxTick_eq hc
    obtain ⟨M, -, -, -, -, hw⟩ := addAccInterval_spec h.1.1.sync.inv.1 (by norm_num) hc
    have et : (c'.channels .x).ticks = (c.channels .x).ticks + 1 := by rw [M.ch .x]; simp
    refine ⟨⟨A, fun τ hτ => ?_⟩, fun w0 τ hτ => by rw [hw]; exact h.2 w0 τ (by omega)⟩
    by_cases hb : τ < (c.channels .x).ticks
    · refine h.1.2.past h.1.1.sync ⟨by omega, fun i σ hσ => ?_, fun w0 σ _ => hw w0 σ, M.cw⟩ τ hb
      rw [M.acc i σ (by omega), dif_neg (by omega)]
    · exact .inl fun w0 => by rw [hw]; exact h.2 w0 τ (by omega)
  read {c c'} h hc := by
    obtain ⟨q1, p⟩ := read_past h.1.sync hc
    exact ⟨(AnyDraw.Along.draws L w).read h.1 hc, h.2.same h.1.sync p q1⟩

theorem new (L : Limits aMax vMax) (w : ℤ) : Moves aMax vMax w ((Ctx.new aMax vMax).setWeight w) :=
  ⟨.new L w, fun _ hτ => absurd hτ (Nat.not_lt_zero _)⟩

end StepperPaths.InsideDraw
