import Verif.Proof.Tracking
import Verif.Spec.Rounded

/-! Curves with rounding: the loop of `approx_curve`. -/

namespace StepperPaths.Rounded
open Coords Curves Context IntegerCurve Spec Props Draw Tracking

/-! ### FloatRounding -/

theorem _root_.StepperPaths.Spec.FloatRounding.le {fl : ℝ → ℝ} (R : FloatRounding fl) {x M : ℝ} (hx : |x| ≤ M) (hM : 1 ≤ M) :
    |fl x - x| ≤ M / 2 ^ 52 := by
  have h := R.near x
  have h1 : (2⁻¹ : ℝ) ^ 53 * |x| ≤ 2⁻¹ ^ 53 * M := by gcongr
  have h2 : (2⁻¹ : ℝ) ^ 1075 ≤ 2⁻¹ ^ 53 := pow_le_pow_of_le_one (by norm_num) (by norm_num) (by norm_num)
  have h3 : (2⁻¹ : ℝ) ^ 53 ≤ 2⁻¹ ^ 53 * M := le_mul_of_one_le_right (by positivity) hM
  have h4 : M / 2 ^ 52 = 2⁻¹ ^ 53 * M + 2⁻¹ ^ 53 * M := by ring
  rw [h4]
  exact h.trans (add_le_add h1 (h2.trans h3))

theorem _root_.StepperPaths.Spec.FloatRounding.zero {fl : ℝ → ℝ} (R : FloatRounding fl) : fl 0 = 0 := by
  have := R.int 0 (by norm_num)
  simpa using this

/-! ### One pass -/

/-- A small change of the position error and the accumulated error. -/
theorem _root_.StepperPaths.Tracking.Inv.perturb {S S' p p' w I I' η : ℝ} (h : Inv S p w I) (hη : 0 ≤ η)
    (hS : S + 2 * η ≤ S') (hp : |p' - p| ≤ η) (hI : |I' - I| ≤ η) : Inv S' p' w I' := by
  obtain ⟨p1, p2⟩ := abs_le'.1 hp
  obtain ⟨i1, i2⟩ := abs_le'.1 hI
  constructor
  · linarith only [h.u0, hη, hS, p1, p2, i1, i2]
  · linarith only [h.l0, hη, hS, p1, p2, i1, i2]
  · linarith only [h.u1, hη, hS, p1, p2, i1, i2]
  · linarith only [h.l1, hη, hS, p1, p2, i1, i2]
  · linarith only [h.u2, hη, hS, p1, p2, i1, i2]
  · linarith only [h.l2, hη, hS, p1, p2, i1, i2]
  · linarith only [h.u3, hη, hS, p1, p2, i1, i2]
  · linarith only [h.l3, hη, hS, p1, p2, i1, i2]
  · linarith only [h.u4, hη, hS, p1, p2, i1, i2]
  · linarith only [h.l4, hη, hS, p1, p2, i1, i2]
  · linarith only [h.u5, hη, hS, p1, p2, i1, i2]
  · linarith only [h.l5, hη, hS, p1, p2, i1, i2]
  · linarith only [h.u6, hη, hS, p1, p2, i1, i2]
  · linarith only [h.l6, hη, hS, p1, p2, i1, i2]
  · linarith only [h.u7, hη, hS, p1, p2, i1, i2]
  · linarith only [h.l7, hη, hS, p1, p2, i1, i2]
  · linarith only [h.u8, hη, hS, p1, p2, i1, i2]
  · linarith only [h.l8, hη, hS, p1, p2, i1, i2]
  · linarith only [h.u9, hη, hS, p1, p2, i1, i2]
  · linarith only [h.l9, hη, hS, p1, p2, i1, i2]
  · linarith only [h.u10, hη, hS, p1, p2, i1, i2]
  · linarith only [h.l10, hη, hS, p1, p2, i1, i2]
  · linarith only [h.u11, hη, hS, p1, p2, i1, i2]
  · linarith only [h.l11, hη, hS, p1, p2, i1, i2]
  · linarith only [h.u12, hη, hS, p1, p2, i1, i2]
  · linarith only [h.l12, hη, hS, p1, p2, i1, i2]
  · linarith only [h.u13, hη, hS, p1, p2, i1, i2]
  · linarith only [h.l13, hη, hS, p1, p2, i1, i2]
  · linarith only [h.u14, hη, hS, p1, p2, i1, i2]
  · linarith only [h.l14, hη, hS, p1, p2, i1, i2]
  · linarith only [h.u15, hη, hS, p1, p2, i1, i2]
  · linarith only [h.l15, hη, hS, p1, p2, i1, i2]
  · linarith only [h.u16, hη, hS, p1, p2, i1, i2]
  · linarith only [h.l16, hη, hS, p1, p2, i1, i2]
  · linarith only [h.u17, hη, hS, p1, p2, i1, i2]
  · linarith only [h.l17, hη, hS, p1, p2, i1, i2]
  · linarith only [h.u18, hη, hS, p1, p2, i1, i2]
  · linarith only [h.l18, hη, hS, p1, p2, i1, i2]
  · linarith only [h.u19, hη, hS, p1, p2, i1, i2]
  · linarith only [h.l19, hη, hS, p1, p2, i1, i2]
  · linarith only [h.u20, hη, hS, p1, p2, i1, i2]
  · linarith only [h.l20, hη, hS, p1, p2, i1, i2]

/-- With rounding, the acceleration is the answer of the exact feedback loop to a position error `q`
and an accumulated error `J` that are a little different from the ones of the axis, with a rounding
error that is a little larger than 1/2.  `T` is a bound for the size `S`. -/
theorem wantedAcc_ask {fl : ℝ → ℝ} (R : FloatRounding fl) {ch : Channel} {aMax : ℤ} {P V I p w S T : ℝ} (hS : 1 ≤ S)
    (hT : S + T / 2 ^ 40 ≤ T) (hT2 : T ≤ 10020) (ha : 3011 / 1000 * T ≤ aMax) (hP : |P| ≤ 2 ^ 51)
    (ep : (P - ((ch.pos + 2 * ch.v : ℤ) : ℝ)) / 2 = p) (ew : V - (ch.v : ℝ) = w) (h : Inv S p w I) :
    ∃ q J r : ℝ, |q - p| ≤ T / 2 ^ 43 ∧ Inv (S + T / 2 ^ 40) q w J ∧ |r| ≤ (S + T / 2 ^ 40) / 2 ∧
      nextErr fl I (accForPos fl ch aMax P) = Draw.nextErr J q ∧
      ((wantedAcc fl ch aMax P V (nextErr fl I (accForPos fl ch aMax P)) : ℤ) : ℝ) = ask q w J r := by
  have hS0 : 0 ≤ S := by linarith
  have hT0 : S ≤ T := by
    rcases le_total 0 T with h0 | h0
    · have : 0 ≤ T / 2 ^ 40 := by positivity
      linarith
    · have e1 : T * (1 - 1 / 2 ^ 40) ≤ 0 := mul_nonpos_of_nonpos_of_nonneg h0 (by norm_num)
      have e2 : T * (1 - 1 / 2 ^ 40) = T - T / 2 ^ 40 := by ring
      linarith
  have hT1 : 1 ≤ T := hS.trans hT0
  set u : ℝ := T / 2 ^ 48 with hu
  have hu0 : 0 ≤ u := by positivity
  have rd : ∀ x, |x| ≤ 16 * T → |fl x - x| ≤ u := by
    intro x hx
    have := R.le hx (by linarith)
    rw [hu]
    refine this.trans (le_of_eq ?_)
    ring
  have e40 : T / 2 ^ 40 = 256 * u := by rw [hu]; ring
  have e43 : T / 2 ^ 43 = 32 * u := by rw [hu]; ring
  have uT : u ≤ T / 1000 := by
    rw [hu]
    have : (1000 : ℝ) ≤ 2 ^ 48 := by norm_num
    gcongr
  rw [e40] at hT ⊢
  rw [e43]
  obtain ⟨b1, b2, -, -, -⟩ := h.bounds (r := 0) hS0 (by rw [abs_zero]; linarith)
  have b3 : |I| ≤ 2 * S := abs_le'.2 ⟨by linarith only [h.u2, hS0], by linarith only [h.l2, hS0]⟩
  -- the prediction of the position is exact
  have hn : fl ((ch.pos + 2 * ch.v : ℤ) : ℝ) = ((ch.pos + 2 * ch.v : ℤ) : ℝ) := by
    refine R.int _ ?_
    have h1 : |((ch.pos + 2 * ch.v : ℤ) : ℝ)| ≤ 2 ^ 53 := by
      have e1 : ((ch.pos + 2 * ch.v : ℤ) : ℝ) = P - 2 * p := by rw [← ep]; ring
      rw [e1]
      refine (abs_sub _ _).trans ?_
      rw [abs_mul, abs_of_pos (by norm_num : (0 : ℝ) < 2)]
      have : (2 : ℝ) ^ 53 = 2 ^ 51 + 3 * 2 ^ 51 := by norm_num
      have : (100000 : ℝ) ≤ 3 * 2 ^ 51 := by norm_num
      linarith
    exact_mod_cast h1
  set D := P - ((ch.pos + 2 * ch.v : ℤ) : ℝ) with hD
  have eD : D = 2 * p := by rw [← ep]; ring
  have r1 := rd D (by rw [eD, abs_mul, abs_of_pos (by norm_num : (0 : ℝ) < 2)]; linarith)
  have r2 := rd (fl D / 2) (by
    rw [abs_le] at r1 b1 ⊢
    constructor <;> linarith)
  set q := fl (fl D / 2) with hq
  have hqp : |q - p| ≤ 2 * u := by
    rw [abs_le] at *
    constructor <;> linarith
  have hq3 : |q| ≤ 3 * T := by
    rw [abs_le] at *
    constructor <;> linarith
  have eP : accForPos fl ch aMax P = q := by
    unfold accForPos
    rw [hn]
    exact limit_id (by linarith)
  -- the accumulated error
  have r3 : |fl (1 / 10) - 1 / 10| ≤ 1 / 2 ^ 52 := R.le (by norm_num) le_rfl
  set g := fl (1 / 10) with hg
  have hqg : |q * g - q / 10| ≤ u := by
    have e1 : q * g - q / 10 = q * (g - 1 / 10) := by ring
    rw [e1, abs_mul]
    calc |q| * |g - 1 / 10| ≤ (3 * T) * (1 / 2 ^ 52) := mul_le_mul hq3 r3 (abs_nonneg _) (by linarith)
      _ = 3 / 16 * u := by rw [hu]; ring
      _ ≤ u := by linarith
  have r4 := rd (q * g) (by
    rw [abs_le] at *
    constructor <;> linarith)
  have r5 := rd (I + fl (q * g)) (by
    rw [abs_le] at *
    constructor <;> linarith)
  set K := fl (I + fl (q * g)) with hK
  set J := K - q / 10 with hJ
  have hJI : |J - I| ≤ 3 * u := by
    rw [hJ]
    rw [abs_le] at *
    constructor <;> linarith
  have eJ : J + q * (1 / 10) = K := by rw [hJ]; ring
  have eE : nextErr fl I (accForPos fl ch aMax P) = Draw.nextErr J q := by
    rw [eP]
    unfold nextErr Draw.nextErr
    simp only [eJ, ← hg, ← hK]
  have hI2 : Inv (S + 256 * u) q w J := h.perturb (η := 3 * u) (by linarith) (by linarith) (by linarith) hJI
  refine ⟨q, J, ?_⟩
  rw [eE]
  set E := Draw.nextErr J q with hE
  have hE3 : |E| ≤ 4 * T := by
    have hK3 : |K| ≤ 4 * T := by
      rw [abs_le] at *
      constructor <;> linarith
    rw [hE]
    unfold Draw.nextErr
    simp only [eJ]
    split
    · rw [abs_zero]; linarith
    · exact hK3
  -- the speed
  have r6 := rd w (by linarith)
  have hw3 : |fl w| ≤ 3 * T := by
    rw [abs_le] at *
    constructor <;> linarith
  have eV : accForSpeed fl ch aMax V = fl w := by
    unfold accForSpeed
    rw [ew]
    exact limit_id (by linarith)
  have r7 := rd (fl w * (1 / 2)) (by
    rw [abs_le] at *
    constructor <;> linarith)
  have r8 := rd (q + E) (by
    rw [abs_le] at *
    constructor <;> linarith)
  have r9 := rd (fl (q + E) * (1 / 2)) (by
    rw [abs_le] at *
    constructor <;> linarith)
  have r10 := rd (fl (fl w * (1 / 2)) + fl (fl (q + E) * (1 / 2))) (by
    rw [abs_le] at *
    constructor <;> linarith)
  set X := fl (fl (fl w * (1 / 2)) + fl (fl (q + E) * (1 / 2))) with hX
  have hXa : |X - ask q w J 0| ≤ 8 * u := by
    unfold ask
    rw [← hE]
    rw [abs_le] at *
    constructor <;> linarith
  have hr := round_near X
  obtain ⟨-, -, -, b4, -⟩ := hI2.bounds (r := 0) (by linarith) (by rw [abs_zero]; linarith)
  have hr2 : |(Draw.round X : ℝ) - ask q w J 0| ≤ (S + 256 * u) / 2 := by
    rw [abs_le] at *
    constructor <;> linarith
  refine ⟨(Draw.round X : ℝ) - ask q w J 0, by linarith, hI2, hr2, rfl, ?_⟩
  unfold wantedAcc
  rw [eP, eV, ← hX]
  have b : |((Draw.round X : ℤ) : ℝ)| ≤ ((32767 : ℤ) : ℝ) := by
    have h1 := abs_sub_abs_le_abs_sub ((Draw.round X : ℤ) : ℝ) X
    have h2 := abs_sub_abs_le_abs_sub X (ask q w J 0)
    push_cast
    linarith
  have b' : |Draw.round X| ≤ 32767 := by exact_mod_cast b
  rw [abs_le] at b'
  unfold satI16
  rw [if_neg (by omega), if_neg (by omega)]
  unfold ask
  ring

/-! ### The loop -/

theorem approxPass_eq {fl : ℝ → ℝ} {e : Env} {start : Vec} {curve : Curve} {v p : ℝ} {s s' : Approx}
    (h : approxPass fl e start curve v p s = some s') :
    s.ctx.approxTick
      (wantedAcc fl (s.ctx.channels .x) (s.ctx.aMax .x) (stepPos fl e start (curve.value p).1 .x)
        (stepV fl e (curve.value p).2 v .x) (s'.err .x))
      (wantedAcc fl (s.ctx.channels .y) (s.ctx.aMax .y) (stepPos fl e start (curve.value p).1 .y)
        (stepV fl e (curve.value p).2 v .y) (s'.err .y)) = some s'.ctx ∧
    (∀ i, s'.err i = nextErr fl (s.err i) (accForPos fl (s.ctx.channels i) (s.ctx.aMax i)
      (stepPos fl e start (curve.value p).1 i))) ∧
    ∀ i, s'.maxErr i = max (s.maxErr i)
      |(s'.ctx.channels i).pos - trunc (stepPos fl e start (curve.value p).1 i)| := by
  unfold approxPass at h
  obtain ⟨c, hc, h⟩ := Option.bind_eq_some_iff.1 h
  cases h
  exact ⟨hc, fun _ => rfl, fun i => accMax_eq _ _⟩

/-- The loop keeps the errors of an axis in the region, which grows a little with each pass. -/
theorem approxLoop_tracks {fl : ℝ → ℝ} (R : FloatRounding fl) {e : Env} {start : Vec} {curve : Curve}
    {v len S₀ S T : ℝ} {n t : ℕ} {s s' : Approx} {i : Axis} {P V : ℕ → ℝ} (hn : Context.Near s.ctx)
    (hS₀ : 1 ≤ S₀) (hS : S₀ ≤ S) (hT : S + n * (T / 2 ^ 40) ≤ T) (hT0 : 0 ≤ T) (hT2 : T ≤ 10020)
    (ha : 3011 / 1000 * T ≤ s.ctx.aMax i)
    (eP : ∀ k : ℕ, P k = stepPos fl e start (curve.value (fl (k * len))).1 i)
    (eV : ∀ k : ℕ, V k = stepV fl e (curve.value (fl (k * len))).2 v i)
    (hB : ∀ k < n, |P (t + k)| ≤ 2 ^ 51)
    (hV : ∀ k < n, |V (t + k)| + 214 / 100 * T ≤ s.ctx.vMax i)
    (hP : ∀ k, k + 1 < n → |P (t + k + 1) - P (t + k) - 2 * V (t + k)| ≤ S₀ / 2)
    (hW : ∀ k, k + 1 < n → |V (t + k + 1) - V (t + k)| ≤ S₀ / 4)
    (hI : 0 < n → Inv S ((P t - (((s.ctx.channels i).pos + 2 * (s.ctx.channels i).v : ℤ) : ℝ)) / 2)
      (V t - ((s.ctx.channels i).v : ℝ)) (s.err i))
    (h : approxLoop fl e start curve v len t n s = some s') :
    ∃ l, Moved s.ctx s'.ctx l ∧ (l i).length = n ∧
      (∀ k (hk : k < (l i).length),
        |(((s.ctx.channels i).pos + Spec.dist (s.ctx.channels i).v ((l i).take (k + 1)) : ℤ) : ℝ) - P (t + k)| ≤
          3821 / 1000 * T ∧
        |((endVel (s.ctx.channels i).v ((l i).take (k + 1)) : ℤ) : ℝ) - V (t + k)| ≤ 214 / 100 * T ∧
        |(((l i)[k] : ℤ) : ℝ)| ≤ 301 / 100 * T) := by
  have hS0 : 0 ≤ S₀ := by linarith
  induction n generalizing t s S with
  | zero =>
    cases h
    refine ⟨_, Moved.refl hn, rfl, fun k hk => ?_⟩
    simp at hk
  | succ n ih =>
    simp only [approxLoop] at h
    obtain ⟨s1, h1, h⟩ := Option.bind_eq_some_iff.1 h
    obtain ⟨hc, he1, hm1⟩ := approxPass_eq h1
    obtain ⟨bx, yb, l1, l2, hc⟩ := approxTick_eq hc
    obtain ⟨M, -, -, -, -, w1⟩ := addAccInterval_spec hn (by norm_num) hc
    have hI := hI (by omega)
    have hV0 := hV 0 (by omega)
    have hB0 := hB 0 (by omega)
    rw [add_zero] at hV0 hB0
    have hT1 : S + T / 2 ^ 40 ≤ T := by
      refine le_trans ?_ hT
      push_cast
      have : 0 ≤ (n : ℝ) * (T / 2 ^ 40) := by positivity
      linarith
    have hl : limitSpeed (s.ctx.channels i).v (s.ctx.vMax i) (wantedAcc fl (s.ctx.channels i) (s.ctx.aMax i)
        (P t) (V t) (s1.err i)) = some (both bx yb i) := by
      rw [eP, eV]
      cases i
      · exact l1
      · exact l2
    have he1 := he1 i
    rw [← eP] at he1
    generalize ep : (P t - (((s.ctx.channels i).pos + 2 * (s.ctx.channels i).v : ℤ) : ℝ)) / 2 = p at hI
    generalize ew : V t - ((s.ctx.channels i).v : ℝ) = w at hI
    obtain ⟨q, J, r, hq, hI2, hr, eE, q2⟩ := wantedAcc_ask R (hS₀.trans hS) hT1 hT2 ha hB0 ep ew hI
    rw [← he1] at q2
    have eE := he1.trans eE
    set δ := T / 2 ^ 40 with hδ
    have hδ0 : 0 ≤ δ := by positivity
    have e43 : T / 2 ^ 43 = δ / 8 := by rw [hδ]; ring
    rw [e43] at hq
    have hδT : δ ≤ T / 1000000 := by
      rw [hδ]
      have : (1000000 : ℝ) ≤ 2 ^ 40 := by norm_num
      gcongr
    have hS' : 0 ≤ S + δ := by linarith
    obtain ⟨b1, b2, b3, b4, b5⟩ := hI2.bounds hS' hr
    rw [← q2] at b3 b4 b5
    generalize wantedAcc fl (s.ctx.channels i) (s.ctx.aMax i) (P t) (V t) (s1.err i) = a at *
    have ea : both bx yb i = a := by
      refine limitSpeed_id ?_ hl
      have : |(((s.ctx.channels i).v + a : ℤ) : ℝ)| ≤ s.ctx.vMax i := by
        have e1 : (((s.ctx.channels i).v + a : ℤ) : ℝ) = V t - (w - a) := by
          rw [← ew]; push_cast; ring
        rw [e1]
        exact (abs_sub _ _).trans (by linarith)
      exact_mod_cast this
    have hch : s1.ctx.channels i = ⟨(s.ctx.channels i).pos + ((s.ctx.channels i).v +
        ((s.ctx.channels i).v + a)), (s.ctx.channels i).v + a, (s.ctx.channels i).ticks + 1⟩ := by
      rw [M.ch i, ← ea]
      simp [Spec.dist, endVel]
    obtain ⟨l, M2, hlen, hb⟩ := ih (t := t + 1) (S := S + δ) M.near (by linarith)
      (by push_cast at hT; linarith) (by rw [M.aMax]; exact ha)
      (fun k hk => by
        have := hB (k + 1) (by omega)
        rwa [show t + 1 + k = t + (k + 1) by omega])
      (fun k hk => by
        have := hV (k + 1) (by omega)
        rw [M.vMax]
        rwa [show t + 1 + k = t + (k + 1) by omega])
      (fun k hk => by
        have := hP (k + 1) (by omega)
        rwa [show t + 1 + k = t + (k + 1) by omega])
      (fun k hk => by
        have := hW (k + 1) (by omega)
        rwa [show t + 1 + k = t + (k + 1) by omega])
      (fun hn0 => by
        have hp0 := hP 0 (by omega)
        have hw0 := hW 0 (by omega)
        rw [add_zero] at hp0 hw0
        have := hI2.step hS' hr (d := (P (t + 1) - P t - 2 * V t) / 2 + (p - q)) (d' := V (t + 1) - V t)
          (by
            rw [abs_le] at *
            constructor <;> linarith) (by linarith)
        rw [← q2, ← eE] at this
        convert this using 1
        · rw [hch, ← ep, ← ew]; push_cast; ring
        · rw [hch, ← ew]; push_cast; ring)
      h
    have hpos : |(((s.ctx.channels i).pos + ((s.ctx.channels i).v + ((s.ctx.channels i).v + a)) : ℤ) : ℝ) - P t| ≤
        3821 / 1000 * T := by
      have e1 : (((s.ctx.channels i).pos + ((s.ctx.channels i).v + ((s.ctx.channels i).v + a)) : ℤ) : ℝ) - P t =
          2 * (q - p) - (2 * q - a) := by
        rw [← ep]; push_cast; ring
      rw [e1]
      rw [abs_le] at *
      constructor <;> linarith
    refine ⟨_, M.trans M2, ?_, fun k hk => ?_⟩
    · simp [hlen]
    · rcases k with _ | k
      · simp only [List.replicate_one, List.cons_append, List.nil_append, List.take_succ_cons, List.take_zero,
          Spec.dist, endVel, List.getElem_cons_zero, add_zero, ea]
        refine ⟨hpos, ?_, by linarith⟩
        have e1 : (((s.ctx.channels i).v + a : ℤ) : ℝ) - V t = -(w - a) := by
          rw [← ew]; push_cast; ring
        rw [e1, abs_neg]
        linarith
      · have := hb k (by simp at hk; omega)
        rw [hch] at this
        simp only [List.replicate_one, List.cons_append, List.nil_append, List.take_succ_cons,
          Spec.dist, endVel, List.getElem_cons_succ, ea]
        rw [show t + 1 + k = t + (k + 1) by omega] at this
        rw [← add_assoc (s.ctx.channels i).pos]
        exact this

/-- `approx_curve` is one of the histories covered by C23-C31. -/
theorem approxLoop_request {fl : ℝ → ℝ} {e : Env} {start : Vec} {curve : Curve} {v len : ℝ} {t n : ℕ}
    {s s' : Approx} (h : approxLoop fl e start curve v len t n s = some s') :
    ∃ request : Nat → Ctx → Int × Int,
      (∀ t c, (-32768 ≤ (request t c).1 ∧ (request t c).1 ≤ 32767) ∧
        (-32768 ≤ (request t c).2 ∧ (request t c).2 ≤ 32767)) ∧
      s.ctx.approxCurve request t n = some s'.ctx := by
  have congr : ∀ (n t : ℕ) (c : Ctx) (r r' : Nat → Ctx → Int × Int),
      (∀ u c, t ≤ u → r u c = r' u c) → c.approxCurve r t n = c.approxCurve r' t n := by
    intro n
    induction n with
    | zero => intros; rfl
    | succ n ih =>
      intro t c r r' hr
      simp only [Ctx.approxCurve]
      rw [hr t c le_rfl]
      congr 1
      funext c1
      exact ih (t + 1) c1 r r' (fun u c hu => hr u c (by omega))
  induction n generalizing t s with
  | zero =>
    cases h
    exact ⟨fun _ _ => (0, 0), by simp, rfl⟩
  | succ n ih =>
    simp only [approxLoop] at h
    obtain ⟨s1, h1, h⟩ := Option.bind_eq_some_iff.1 h
    obtain ⟨hc, -, -⟩ := approxPass_eq h1
    obtain ⟨r, hr, hrun⟩ := ih h
    generalize ax : wantedAcc fl (s.ctx.channels .x) _ _ _ _ = a at hc
    generalize ay : wantedAcc fl (s.ctx.channels .y) _ _ _ _ = b at hc
    have ba : -32768 ≤ a ∧ a ≤ 32767 := by rw [← ax]; exact (satI16_abs _).2
    have bb : -32768 ≤ b ∧ b ≤ 32767 := by rw [← ay]; exact (satI16_abs _).2
    refine ⟨fun u c => if u = t then (a, b) else r u c, fun u c => ?_, ?_⟩
    · by_cases hu : u = t
      · simp only [hu, if_true]; exact ⟨ba, bb⟩
      · simp only [hu, if_false]; exact hr u c
    · simp only [Ctx.approxCurve, if_true]
      rw [hc]
      simp only [Option.bind_eq_bind, Option.bind_some]
      rw [congr n (t + 1) s1.ctx _ r (fun u c hu => if_neg (by omega)), hrun]

/-- About the loop: the speeds, the weights and the reported
errors. -/
theorem approxLoop_spec {fl : ℝ → ℝ} {e : Env} {start : Vec} {curve : Curve} {v len : ℝ} {t n : ℕ}
    {s s' : Approx} (hn : Context.Near s.ctx)
    (hv : ∀ i, |(s.ctx.channels i).v| ≤ s.ctx.vMax i)
    (h : approxLoop fl e start curve v len t n s = some s') :
    ∃ l, Moved s.ctx s'.ctx l ∧ (∀ i, (l i).length = n) ∧
      (∀ i, ∀ x ∈ vels (s.ctx.channels i).v (l i), |x| ≤ s.ctx.vMax i) ∧
      (∀ w τ, weightAt w s'.ctx.events τ = weightAt w s.ctx.events τ) ∧
      (∀ i, s'.maxErr i = (List.range n).foldl (fun m k => max m
        |(s.ctx.channels i).pos + Spec.dist (s.ctx.channels i).v ((l i).take (k + 1)) -
          trunc (stepPos fl e start (curve.value (fl ((t + k : ℕ) * len))).1 i)|) (s.maxErr i)) := by
  induction n generalizing t s with
  | zero =>
    cases h
    refine ⟨_, Moved.refl hn, fun _ => rfl, fun i => by simp [vels], fun _ _ => rfl,
      fun i => rfl⟩
  | succ n ih =>
    simp only [approxLoop] at h
    obtain ⟨s1, h1, h⟩ := Option.bind_eq_some_iff.1 h
    obtain ⟨hc, he1, hm1⟩ := approxPass_eq h1
    obtain ⟨bx, yb, l1, l2, hc⟩ := approxTick_eq hc
    obtain ⟨M, -, -, -, -, w1⟩ := addAccInterval_spec hn (by norm_num) hc
    obtain ⟨x1, x2, -⟩ := limitSpeed_spec (hv .x) (satI16_abs _).2.1 (satI16_abs _).2.2 l1
    obtain ⟨y1, y2, -⟩ := limitSpeed_spec (hv .y) (satI16_abs _).2.1 (satI16_abs _).2.2 l2
    have hvel : ∀ i, |(s.ctx.channels i).v + both bx yb i| ≤ s.ctx.vMax i := by
      intro i; cases i
      · exact x1
      · exact y1
    have hch : ∀ i, s1.ctx.channels i = ⟨(s.ctx.channels i).pos + ((s.ctx.channels i).v +
        ((s.ctx.channels i).v + both bx yb i)), (s.ctx.channels i).v + both bx yb i,
        (s.ctx.channels i).ticks + 1⟩ := by
      intro i
      rw [M.ch i]
      simp [Spec.dist, endVel]
    obtain ⟨l, M2, hl, hs, w2, hm⟩ := ih M.near (fun i => by rw [M.vMax, hch i]; exact hvel i) h
    refine ⟨_, M.trans M2, fun i => ?_, fun i => ?_, fun w τ => by rw [w2, w1],
      fun i => ?_⟩
    · simp [hl]
    · simp only [List.replicate_one, List.cons_append, List.nil_append, vels, List.mem_cons]
      rintro x (rfl | hx)
      · exact hvel i
      · have := hs i x
        rw [hch i, M.vMax] at this
        exact this hx
    · rw [hm i, hm1 i, List.range_succ_eq_map, List.foldl_cons, List.foldl_map]
      simp only [hch i]
      congr 1
      · funext m k
        simp only [List.replicate_one, List.cons_append, List.nil_append, List.take_succ_cons, Spec.dist,
          Nat.succ_eq_add_one]
        rw [show t + (k + 1) = t + 1 + k by omega]
        congr 2
        ring
      · simp [Spec.dist]

theorem approx_near {fl : ℝ → ℝ} {aMax vMax : Axis → ℤ} {e : Env} {c c' : Ctx} {start : Vec} {curve : Curve}
    {v : ℝ} {err : Axis → ℤ} (h : Reach aMax vMax c) (hr : approxCurve fl e c start curve v = some (c', err))
    (hk : 0 < approxSteps fl curve v) : Context.Near c := by
  obtain ⟨hti, -⟩ := h.inv
  rcases hti with hn | hfu
  · exact hn
  · unfold approxCurve at hr
    obtain ⟨s, hs, -⟩ := Option.bind_eq_some_iff.1 hr
    obtain ⟨r, -, hc⟩ := approxLoop_request hs
    rw [(future_blocks hfu).2.2.2.1 r 1 _ hk] at hc
    cases hc

theorem approxSteps_le (fl : ℝ → ℝ) (curve : Curve) (v : ℝ) : (approxSteps fl curve v : ℝ) ≤ 2 ^ 31 := by
  have : approxSteps fl curve v ≤ 2 ^ 31 := by
    unfold approxSteps satI32
    split
    · simp
    · split
      · simp
      · omega
  exact_mod_cast this

theorem approxCurve_follows {fl : ℝ → ℝ} (R : FloatRounding fl) {aMax vMax : Axis → ℤ} {e : Env} {c c' : Ctx}
    {start : Vec} {curve : Curve} {v S : ℝ} {err : Axis → ℤ} {i : Axis} (h : Reach aMax vMax c) (hS : 1 ≤ S)
    (hS2 : S ≤ 10000) (ha : 302 / 100 * S ≤ aMax i)
    (hB : ∀ k < approxSteps fl curve v, |floatPos fl e start curve v i (k + 1)| ≤ 2 ^ 51)
    (hV : ∀ k < approxSteps fl curve v, |floatVel fl e curve v i (k + 1)| + 215 / 100 * S ≤ vMax i)
    (hP : ∀ k, 1 ≤ k → k < approxSteps fl curve v →
      |floatPos fl e start curve v i (k + 1) - floatPos fl e start curve v i k - 2 * floatVel fl e curve v i k| ≤ S / 2)
    (hW : ∀ k, 1 ≤ k → k < approxSteps fl curve v →
      |floatVel fl e curve v i (k + 1) - floatVel fl e curve v i k| ≤ S / 4)
    (hp0 : 0 < approxSteps fl curve v →
      |floatPos fl e start curve v i 1 - ((c.channels i).pos : ℝ) - 2 * ((c.channels i).v : ℝ)| ≤ 3 * S)
    (hv0 : 0 < approxSteps fl curve v → |floatVel fl e curve v i 1 - ((c.channels i).v : ℝ)| ≤ 3 / 4 * S)
    (hr : approxCurve fl e c start curve v = some (c', err)) :
    Spec.FloatFollows (floatPos fl e start curve v i) (floatVel fl e curve v i) (approxSteps fl curve v) i c'.events
      (c.channels i).ticks S := by
  intro k hk
  have hn := approx_near h hr (by omega)
  obtain ⟨-, htr, ea, ev, -⟩ := h.inv
  unfold approxCurve at hr
  obtain ⟨s, hs, hr⟩ := Option.bind_eq_some_iff.1 hr
  cases hr
  set T := 1002 / 1000 * S with hT
  obtain ⟨l, M, hl, hb⟩ := approxLoop_tracks R (i := i) (S₀ := S) (S := S) (T := T) (P := floatPos fl e start curve v i)
    (V := floatVel fl e curve v i) hn hS le_rfl
    (by
      have h1 := approxSteps_le fl curve v
      have h2 : (approxSteps fl curve v : ℝ) * (T / 2 ^ 40) ≤ 2 ^ 31 * (T / 2 ^ 40) := by
        have : 0 ≤ T / 2 ^ 40 := by rw [hT]; positivity
        gcongr
      have h3 : 2 ^ 31 * (T / 2 ^ 40) = T / 512 := by ring
      linarith)
    (by linarith) (by linarith) (by rw [ea]; linarith)
    (fun k => rfl)
    (fun k => rfl)
    (fun k hk => by rw [add_comm 1]; exact hB k hk)
    (fun k hk => by rw [ev, add_comm 1]; have := hV k hk; linarith)
    (fun k hk => by rw [add_comm 1]; exact hP (k + 1) (by omega) hk)
    (fun k hk => by rw [add_comm 1]; exact hW (k + 1) (by omega) hk)
    (fun hpos => by
      refine Inv.init ?_ (hv0 hpos)
      have := hp0 hpos
      rw [abs_div, abs_of_pos (by norm_num : (0 : ℝ) < 2)]
      push_cast
      rw [← sub_sub]
      linarith)
    hs
  obtain ⟨b1, b2, b3⟩ := hb k (by rw [hl]; exact hk)
  rw [add_comm 1] at b1 b2
  refine ⟨?_, ?_, ?_⟩
  · have := posAt_follows ((M.acc i).take (k := k + 1) (by rw [hl]; omega))
    rw [List.length_take, min_eq_left (by rw [hl]; omega)] at this
    rw [this, ← htr.pos, ← htr.vel]
    exact b1.trans (by linarith)
  · rw [M.velAt htr i (by rw [hl]; omega)]
    exact b2.trans (by linarith)
  · rw [M.accAt i (by rw [hl]; exact hk)]
    exact b3.trans (by linarith)

end StepperPaths.Rounded
