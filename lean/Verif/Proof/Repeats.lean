import Verif.Proof.Draws
import Mathlib.Data.List.Basic

/-!
The commands of a call follow those of the calls before.
-/

namespace StepperPaths.Repeats
open Context Control Spec Proof IntegerCurve Config Rounded
open Draw (Seg)
open Special (Num)

/-- The commands `b` and then only commands that are `ok`. -/
def Adds (ok : Command → Prop) (b : List Event) (c : Ctx) : Prop :=
  c.moveWeight = 0 ∧ ∃ l, c.events = b ++ l ∧ ∀ ev ∈ l, ok ev.cmd

variable {ok : Command → Prop} {b : List Event} {c c' : Ctx}

theorem Adds.push (h : Adds ok b c) {t : ℕ} {cmd : Command} (hc : ok cmd) (hp : c.push t cmd = some c') : Adds ok b c' := by
  obtain ⟨h0, l, e, hl⟩ := h
  obtain ⟨-, rfl⟩ := push_eq hp
  refine ⟨h0, l ++ [⟨_, cmd⟩], by rw [← List.append_assoc, ← e], fun ev hev => ?_⟩
  rcases List.mem_append.1 hev with h | h
  · exact hl ev h
  · rw [List.mem_singleton.1 h]
    exact hc

theorem Adds.weight (h : Adds ok b c) {w : ℤ} {t : ℕ} (hc : ok (.weight w)) (hp : c.addWeightChange w t = some c') : Adds ok b c' := by
  unfold Ctx.addWeightChange at hp
  rw [cassert_bind] at hp
  obtain ⟨-, hp⟩ := hp
  rw [cassert_bind] at hp
  exact h.push hc hp.2

theorem Adds.take (h : Adds ok b c) (ha : ∀ i a, ok (.acc i a)) {i : Axis} {g : AccSegment} (hp : c.takeSegment i g = some c') : Adds ok b c' := by
  unfold Ctx.takeSegment at hp
  obtain ⟨_, -, hp⟩ := Option.bind_eq_some_iff.1 hp
  obtain ⟨c1, h1, hp⟩ := Option.bind_eq_some_iff.1 hp
  cases hp
  have A := h.push (ha _ _) h1
  exact A

theorem Adds.segs (ha : ∀ i a, ok (.acc i a)) : ∀ (n : ℕ) (sx sy : List AccSegment), sx.length + sy.length = n → ∀ c c' : Ctx, Adds ok b c →
    c.accSegsToEvents sx sy = some c' → Adds ok b c' := by
  intro n
  induction n with
  | zero =>
    intro sx sy h c c' A hc
    obtain rfl : sx = [] := List.length_eq_zero_iff.1 (by omega)
    obtain rfl : sy = [] := List.length_eq_zero_iff.1 (by omega)
    simp only [Ctx.accSegsToEvents, Option.some.injEq] at hc
    exact hc ▸ A
  | succ n ih =>
    intro sx sy h c c' A hc
    match sx, sy with
    | [], [] => simp at h
    | a :: sx, [] =>
      rw [Ctx.accSegsToEvents] at hc
      obtain ⟨c1, h1, hc⟩ := Option.bind_eq_some_iff.1 hc
      exact ih sx [] (by simp at h ⊢; omega) _ _ (A.take ha h1) hc
    | [], b :: sy =>
      rw [Ctx.accSegsToEvents] at hc
      obtain ⟨c1, h1, hc⟩ := Option.bind_eq_some_iff.1 hc
      exact ih [] sy (by simp at h ⊢; omega) _ _ (A.take ha h1) hc
    | a :: sx, b :: sy =>
      rw [Ctx.accSegsToEvents] at hc
      split at hc
      · obtain ⟨c1, h1, hc⟩ := Option.bind_eq_some_iff.1 hc
        exact ih (a :: sx) sy (by simp at h ⊢; omega) _ _ (A.take ha h1) hc
      · obtain ⟨c1, h1, hc⟩ := Option.bind_eq_some_iff.1 hc
        exact ih sx (b :: sy) (by simp at h ⊢; omega) _ _ (A.take ha h1) hc

theorem Adds.channel (h : Adds ok b c) {i : Axis} {seq : List AccSegment} {v : ℤ} (hp : c.gotoChannel i seq v = some c') : Adds ok b c' := by
  unfold Ctx.gotoChannel at hp
  obtain ⟨⟨s, u⟩, -, hp⟩ := Option.bind_eq_some_iff.1 hp
  obtain ⟨_, -, hp⟩ := Option.bind_eq_some_iff.1 hp
  cases hp
  exact h

theorem Adds.goto (h : Adds ok b c) (h0 : ok (.weight 0)) (ha : ∀ i a, ok (.acc i a)) {x y vx vy : ℤ}
    (hp : Checked.stepGotoSpeed c x y vx vy = some c') : Adds ok b c' := by
  have hp := Checked.stepGotoSpeed_le _ _ _ _ _ _ hp
  unfold Ctx.stepGotoSpeed at hp
  obtain ⟨_, -, hp⟩ := Option.bind_eq_some_iff.1 hp
  obtain ⟨_, -, hp⟩ := Option.bind_eq_some_iff.1 hp
  obtain ⟨c1, h1, hp⟩ := Option.bind_eq_some_iff.1 hp
  obtain ⟨seq, -, hp⟩ := Option.bind_eq_some_iff.1 hp
  rw [h.1] at h1
  have A := h.push h0 h1
  split at hp
  · unfold Ctx.gotoFollow at hp
    obtain ⟨c2, h2, hp⟩ := Option.bind_eq_some_iff.1 hp
    obtain ⟨c3, h3, hp⟩ := Option.bind_eq_some_iff.1 hp
    obtain ⟨c4, h4, hp⟩ := Option.bind_eq_some_iff.1 hp
    obtain ⟨_, -, hp⟩ := Option.bind_eq_some_iff.1 hp
    cases hp
    have B := (A.channel h2).channel h3
    refine Adds.segs ha _ _ _ rfl _ _ ?_ h4
    exact B
  · cases hp

theorem Adds.tick (h : Adds ok b c) (ha : ∀ i a, ok (.acc i a)) {ax ay : ℤ} (hp : c.approxTick ax ay = some c') : Adds ok b c' := by
  unfold Ctx.approxTick at hp
  obtain ⟨_, -, hp⟩ := Option.bind_eq_some_iff.1 hp
  obtain ⟨_, -, hp⟩ := Option.bind_eq_some_iff.1 hp
  unfold Ctx.addAccInterval at hp
  obtain ⟨_, -, hp⟩ := Option.bind_eq_some_iff.1 hp
  obtain ⟨c1, h1, hp⟩ := Option.bind_eq_some_iff.1 hp
  obtain ⟨c2, h2, hp⟩ := Option.bind_eq_some_iff.1 hp
  obtain ⟨_, -, hp⟩ := Option.bind_eq_some_iff.1 hp
  cases hp
  have one : ∀ {c c' : Ctx} {i : Axis} {a : ℤ} {n : ℕ}, Adds ok b c → c.addAccChannel i a n = some c' → Adds ok b c' := by
    intro c c' i a n A h
    unfold Ctx.addAccChannel at h
    obtain ⟨_, -, h⟩ := Option.bind_eq_some_iff.1 h
    obtain ⟨_, -, h⟩ := Option.bind_eq_some_iff.1 h
    obtain ⟨c1, h1, h⟩ := Option.bind_eq_some_iff.1 h
    cases h
    have B := A.push (ha _ _) h1
    exact B
  exact one (one h h1) h2

theorem Adds.read (h : Adds ok b c) (h0 : ok (.weight 0)) (ha : ∀ i a, ok (.acc i a)) (hp : c.readEvents = some c') : Adds ok b c' := by
  unfold Ctx.readEvents at hp
  obtain ⟨_, -, hp⟩ := Option.bind_eq_some_iff.1 hp
  obtain ⟨c1, h1, hp⟩ := Option.bind_eq_some_iff.1 hp
  obtain ⟨c2, h2, hp⟩ := Option.bind_eq_some_iff.1 hp
  rw [h.1] at h1
  exact ((h.push h0 h1).push (ha _ _) h2).push (ha _ _) hp

/-- Any commands. -/
theorem draws : Draws (Adds (fun _ => True) b) (Adds (fun _ => True) b) where
  weak h := h
  move h hp := h.weight trivial hp
  curve h hp := h.weight trivial hp
  goto h hp := h.goto trivial (fun _ _ => trivial) hp
  tick h _ hp := h.tick (fun _ _ => trivial) hp
  read h hp := h.read trivial (fun _ _ => trivial) hp

/-- No power but 0. -/
def Dark (cmd : Command) : Prop := ∀ w, cmd = .weight w → w = 0

theorem dark_zero : Dark (.weight 0) := fun w h => by cases h; rfl
theorem dark_acc (i : Axis) (a : ℤ) : Dark (.acc i a) := fun w h => by cases h

variable {fl : ℝ → ℝ} {e : Rounded.Env} {path : List Seg} {v : Num}

theorem times_succ (n : ℕ) (c : Ctx) : Special.drawTimes fl e path v (n + 1) c =
    (Special.drawTimes fl e path v n c).bind fun c => (Special.drawCurves fl e c path v).map Prod.fst := by
  induction n generalizing c with
  | zero =>
    simp only [Special.drawTimes, Option.bind_some]
    cases Special.drawCurves fl e c path v <;> rfl
  | succ n ih =>
    rw [Special.drawTimes]
    conv_rhs => rw [Special.drawTimes]
    cases Special.drawCurves fl e c path v with
    | none => rfl
    | some s => exact ih s.1

/-- The laser is off after the last command. -/
def Closed (es : List Event) : Prop := ∀ τ ≥ duration es, weightAt 0 es τ = 0

theorem Closed.dark {b : List Event} (h : Closed b) (l : List Event) (hl : ∀ ev ∈ l, Dark ev.cmd) (τ : ℕ) (hτ : duration b ≤ τ) :
    weightAt 0 (b ++ l) τ = 0 := by
  induction l using List.reverseRecOn with
  | nil => simpa using h τ hτ
  | append_singleton l ev ih =>
    have ih := ih fun x hx => hl x (by simp [hx])
    rw [← List.append_assoc, weightAt_append, ih]
    split
    · rfl
    · have := hl ev (by simp)
      cases hc : ev.cmd with
      | acc i a => rfl
      | weight w => exact this w hc

theorem closed_curves {c c' : Ctx} {err : Axis → ℤ} (h : Closed c.events) (h0 : c.moveWeight = 0)
    (hp : Special.drawCurves fl e c path v = some (c', err)) : Closed c'.events := by
  unfold Special.drawCurves at hp
  split at hp
  · cases hp; exact h
  · obtain ⟨s, h1, hp⟩ := Option.bind_eq_some_iff.1 hp
    obtain ⟨c1, h2, hp⟩ := Option.bind_eq_some_iff.1 hp
    cases hp
    have m : s.ctx.moveWeight = 0 := by
      unfold Special.drawPen at h1
      obtain ⟨s1, h3, h1⟩ := Option.bind_eq_some_iff.1 h1
      have D := draws (b := c.events)
      exact (D.flush (D.run (s := Rounded.init fl e c) ⟨h0, [], by simp [Rounded.init], by simp⟩ h3) h1).1
    rw [m] at h2
    unfold Ctx.addWeightChange at h2
    rw [cassert_bind] at h2
    obtain ⟨-, h2⟩ := h2
    rw [cassert_bind] at h2
    obtain ⟨-, rfl⟩ := push_eq h2.2
    intro τ hτ
    simp only at hτ ⊢
    rw [duration_append] at hτ
    rw [weightAt_append]
    split
    · rename_i z
      simp only [duration, add_zero] at hτ z
      omega
    · rfl

/-- What each repetition adds. -/
theorem passes (c0 : Ctx) (h0 : c0.moveWeight = 0) (he : c0.events = []) :
    ∃ pass : ℕ → List Event, ∀ n c, Special.drawTimes fl e path v n c0 = some c → c.events = (List.range n).flatMap pass ∧ c.moveWeight = 0 ∧ Closed c.events := by
  have add : ∀ n, ∃ l, ∀ a c, Special.drawTimes fl e path v n c0 = some a → a.moveWeight = 0 → Special.drawTimes fl e path v (n + 1) c0 = some c →
      Closed a.events → c.events = a.events ++ l ∧ c.moveWeight = 0 ∧ Closed c.events := by
    intro n
    rw [times_succ]
    cases ha : Special.drawTimes fl e path v n c0 with
    | none => exact ⟨[], fun a c h => by cases h⟩
    | some a =>
      by_cases h0 : a.moveWeight = 0
      · cases hc : Special.drawCurves fl e a path v with
        | none => exact ⟨[], fun a' c h _ h' => by
            rw [Option.bind_some, hc] at h'
            cases h'⟩
        | some s =>
          obtain ⟨k0, l, k, -⟩ := (draws (b := a.events)).curves (c := a) ⟨h0, [], by simp, by simp⟩ hc
          refine ⟨l, fun a' c h _ h' z => ?_⟩
          cases h
          rw [Option.bind_some, hc] at h'
          cases h'
          exact ⟨k, k0, closed_curves z h0 hc⟩
      · exact ⟨[], fun a' c h h1 => by cases h; exact absurd h1 h0⟩
  choose pass hpass using add
  refine ⟨pass, fun n => ?_⟩
  induction n with
  | zero =>
    intro c h
    cases h
    exact ⟨by simpa using he, h0, fun τ _ => by rw [he]; rfl⟩
  | succ n ih =>
    intro c h
    have h' := h
    rw [times_succ] at h'
    obtain ⟨a, ha, -⟩ := Option.bind_eq_some_iff.1 h'
    obtain ⟨k1, k2, k3⟩ := ih a ha
    obtain ⟨q1, q2⟩ := hpass n a c ha k2 h k3
    refine ⟨?_, q2⟩
    rw [q1, k1, List.range_succ, List.flatMap_append]
    simp

theorem svg_passes (fl : ℝ → ℝ) (e : Rounded.Env) (aMax vMax : Axis → ℤ) (w : ℤ) (path : List Seg) (v : Num) :
    ∃ pass : ℕ → List Event, ∀ n c, Special.svgEvents fl e aMax vMax w path v n = some c →
      ∃ home, c.events = (List.range n).flatMap pass ++ home ∧ ∀ τ ≥ duration ((List.range n).flatMap pass), weightAt 0 c.events τ = 0 := by
  obtain ⟨pass, hp⟩ := passes (fl := fl) (e := e) (path := path) (v := v) ((Ctx.new aMax vMax).setWeight w) rfl rfl
  refine ⟨pass, fun n c h => ?_⟩
  obtain ⟨c1, c2, h1, h2, h3⟩ := svg_last h
  obtain ⟨k1, k2, k3⟩ := hp n c1 h1
  have A : Adds Dark c1.events c1 := ⟨k2, [], by simp, by simp⟩
  obtain ⟨-, l, k, hl⟩ := (A.goto dark_zero dark_acc h2).read dark_zero dark_acc h3
  refine ⟨l, by rw [k, k1], ?_⟩
  rw [← k1, k]
  exact k3.dark l hl

end StepperPaths.Repeats
