import Verif.Proof.JsonRecord
import Verif.Proof.JsonUnique

/-! The configuration as a JSON value. -/

namespace StepperPaths.ConfigText
open Config Svg StepperPaths.Spec.Svg StepperPaths.Spec.Json

/-! ### Numbers -/

theorem good_f64 (conv : Text → Option ℝ) (N : ℕ) : Good N (f64 conv) (IsFloat conv) where
  sound i r v h := by
    obtain ⟨⟨r0, w⟩, h1, h2⟩ := Option.bind_eq_some_iff.1 h
    obtain ⟨x, h3, h4⟩ := Option.map_eq_some_iff.1 h2
    simp only [Prod.mk.injEq] at h4
    obtain ⟨rfl, rfl⟩ := h4
    obtain ⟨n, hn, rfl, rfl⟩ := of_number h1
    exact ⟨.num n, by rw [Tree.Valid]; exact hn, by rw [Tree.text], n, rfl, h3⟩
  complete t r v ht hv _ hr := by
    obtain ⟨n, rfl, hc⟩ := hv
    rw [Tree.Valid] at ht
    rw [Tree.text, f64, number_text n ht hr, Option.bind_some]
    simp only
    rw [hc]
    rfl

theorem plain_text (d : Digits) : Num.text ⟨.none, d, none, none⟩ = d.text := by
  simp [Num.text, Sign.text, fracText, expText]

theorem plain_of_digits (n : Num) (h : n.text.all isDigit = true) : n = ⟨.none, n.whole, none, none⟩ := by
  obtain ⟨σ, d, f, e⟩ := n
  simp only [Num.text, List.all_append, Bool.and_eq_true] at h
  obtain ⟨⟨⟨h1, -⟩, h3⟩, h4⟩ := h
  cases σ with
  | plus => exact absurd h1 (by decide)
  | minus => exact absurd h1 (by decide)
  | none =>
    cases f with
    | some f => simp [fracText, isDigit] at h3
    | none =>
      cases e with
      | some e =>
        simp only [expText, Exp.text, List.all_cons, Bool.and_eq_true] at h4
        cases hc : e.capital <;> rw [hc] at h4 <;> exact absurd h4.1 (by decide)
      | none => rfl

theorem good_u32 (N : ℕ) : Good N u32 IsU32 where
  sound i r v h := by
    obtain ⟨⟨r0, w⟩, h1, h2⟩ := Option.bind_eq_some_iff.1 h
    obtain ⟨n, hn, rfl, rfl⟩ := of_number h1
    simp only at h2
    split at h2
    · rename_i hd
      simp only [Option.some.injEq, Prod.mk.injEq] at h2
      obtain ⟨rfl, rfl⟩ := h2
      have e := plain_of_digits n hd.1
      refine ⟨.num n, by rw [Tree.Valid]; exact hn, by rw [Tree.text], n.whole, by rw [← e], ?_, ?_⟩
      · rw [e, plain_text, digitsVal_text]
      · have := hd.2
        omega
    · simp at h2
  complete t r v ht hv _ hr := by
    obtain ⟨d, rfl, rfl, hlt⟩ := hv
    rw [Tree.Valid] at ht
    rw [Tree.text, u32, number_text _ ht hr, Option.bind_some]
    simp only
    rw [plain_text, digitsVal_text, if_pos]
    refine ⟨?_, by omega⟩
    rw [List.all_eq_true]
    exact digits_isDigit d

theorem good_map {α β : Type} {N : ℕ} {p : Text → Option (Text × α)} {P : α → Tree → Prop} (h : Good N p P) (f : α → β) :
    Good N (fun i => (p i).map fun (r, v) => (r, f v)) (fun b t => ∃ v, b = f v ∧ P v t) where
  sound i r v h' := by
    obtain ⟨⟨r0, w⟩, h1, h2⟩ := Option.map_eq_some_iff.1 h'
    simp only [Prod.mk.injEq] at h2
    obtain ⟨rfl, rfl⟩ := h2
    obtain ⟨t, ht, e, hp⟩ := h.sound _ _ _ h1
    exact ⟨t, ht, e, w, rfl, hp⟩
  complete t r v ht hv hN hr := by
    obtain ⟨v, rfl, hv⟩ := hv
    simp only
    rw [h.complete t r v ht hv hN hr]
    rfl

theorem Good.congr {α : Type} {N : ℕ} {p : Text → Option (Text × α)} {P Q : α → Tree → Prop} (h : Good N p P)
    (e : ∀ v t, P v t ↔ Q v t) : Good N p Q := by
  have : P = Q := funext fun v => funext fun t => propext (e v t)
  exact this ▸ h

/-! ### Records -/

theorem good_stepper (conv : Text → Option ℝ) (n : ℕ) : Good n (stepper conv n) (IsStepper conv) := by
  have hok : List.Forall₂ (FieldOk n) [("stepsPerMillimeter".toList, f64 conv), ("maxVelocity".toList, f64 conv),
      ("maxAcceleration".toList, f64 conv)] [("stepsPerMillimeter", IsFloat conv), ("maxVelocity", IsFloat conv),
      ("maxAcceleration", IsFloat conv)] :=
    .cons ⟨rfl, good_f64 conv n⟩ (.cons ⟨rfl, good_f64 conv n⟩ (.cons ⟨rfl, good_f64 conv n⟩ .nil))
  constructor
  · intro i r v h
    obtain ⟨⟨r0, vs⟩, h1, h2⟩ := Option.bind_eq_some_iff.1 h
    simp only at h2
    split at h2
    · simp only [Option.some.injEq, Prod.mk.injEq] at h2
      obtain ⟨rfl, rfl⟩ := h2
      exact (record_sound hok (by simp) (by simp) h1).2
    · simp at h2
  · intro t r v ht hv hN _
    have := record_complete hok (by simp) (by simp) (vs := [v.stepsPerMillimeter, v.maxVelocity, v.maxAcceleration])
      rfl ht hN hN hv r
    rw [stepper, this, Option.bind_some]

theorem good_laser (n : ℕ) : Good n (laser n) IsLaser := by
  have hok : List.Forall₂ (FieldOk n) [("maxIntensity".toList, u32), ("pwmPeriod".toList, u32),
      ("alignmentIntensity".toList, u32)] [("maxIntensity", IsU32), ("pwmPeriod", IsU32),
      ("alignmentIntensity", IsU32)] :=
    .cons ⟨rfl, good_u32 n⟩ (.cons ⟨rfl, good_u32 n⟩ (.cons ⟨rfl, good_u32 n⟩ .nil))
  constructor
  · intro i r v h
    obtain ⟨⟨r0, vs⟩, h1, h2⟩ := Option.bind_eq_some_iff.1 h
    simp only at h2
    split at h2
    · simp only [Option.some.injEq, Prod.mk.injEq] at h2
      obtain ⟨rfl, rfl⟩ := h2
      exact (record_sound hok (by simp) (by simp) h1).2
    · simp at h2
  · intro t r v ht hv hN _
    have := record_complete hok (by simp) (by simp) (vs := [v.maxIntensity, v.pwmPeriod, v.alignmentIntensity])
      rfl ht hN hN hv r
    rw [laser, this, Option.bind_some]

theorem good_config (conv : Text → Option ℝ) (n : ℕ) : Good n (config conv n) (IsConfig conv) := by
  have hok : List.Forall₂ (FieldOk n) (α := Field Part) (β := Means Part)
      [("ticksPerSecond".toList, fun i => (u32 i).map fun (r, v) => (r, Part.ticks v)),
        ("stepperX".toList, fun i => (stepper conv n i).map fun (r, v) => (r, Part.stepper v)),
        ("stepperY".toList, fun i => (stepper conv n i).map fun (r, v) => (r, Part.stepper v)),
        ("laser".toList, fun i => (laser n i).map fun (r, v) => (r, Part.laser v))]
      [("ticksPerSecond", fun b t => ∃ v, b = Part.ticks v ∧ IsU32 v t),
        ("stepperX", fun b t => ∃ v, b = Part.stepper v ∧ IsStepper conv v t),
        ("stepperY", fun b t => ∃ v, b = Part.stepper v ∧ IsStepper conv v t),
        ("laser", fun b t => ∃ v, b = Part.laser v ∧ IsLaser v t)] :=
    .cons ⟨rfl, good_map (good_u32 n) _⟩ (.cons ⟨rfl, good_map (good_stepper conv n) _⟩
      (.cons ⟨rfl, good_map (good_stepper conv n) _⟩ (.cons ⟨rfl, good_map (good_laser n) _⟩ .nil)))
  have hm : ∀ (a : ℕ) (x y : Stepper) (l : Laser), meanings
      [("ticksPerSecond", fun b t => ∃ v, b = Part.ticks v ∧ IsU32 v t),
        ("stepperX", fun b t => ∃ v, b = Part.stepper v ∧ IsStepper conv v t),
        ("stepperY", fun b t => ∃ v, b = Part.stepper v ∧ IsStepper conv v t),
        ("laser", fun b t => ∃ v, b = Part.laser v ∧ IsLaser v t)] [.ticks a, .stepper x, .stepper y, .laser l] =
      [("ticksPerSecond", IsU32 a), ("stepperX", IsStepper conv x), ("stepperY", IsStepper conv y),
        ("laser", IsLaser l)] := by
    intro a x y l
    simp [meanings]
  constructor
  · intro i r v h
    obtain ⟨⟨r0, vs⟩, h1, h2⟩ := Option.bind_eq_some_iff.1 h
    simp only at h2
    split at h2
    · simp only [Option.some.injEq, Prod.mk.injEq] at h2
      obtain ⟨rfl, rfl⟩ := h2
      obtain ⟨-, t, ht, e, hr⟩ := record_sound hok (by simp) (by simp) h1
      rw [hm] at hr
      exact ⟨t, ht, e, hr⟩
    · simp at h2
  · intro t r v ht hv hN _
    have := record_complete hok (by simp) (by simp)
      (vs := [.ticks v.xy.ticksPerSecond, .stepper (v.xy.stepper .x), .stepper (v.xy.stepper .y), .laser v.laser])
      rfl ht hN hN (by rw [hm]; exact hv) r
    rw [config, this, Option.bind_some]
    simp only [Option.some.injEq, Prod.mk.injEq, true_and]
    obtain ⟨⟨tick, st⟩, l⟩ := v
    congr 2
    funext a
    cases a <;> rfl

end StepperPaths.ConfigText
