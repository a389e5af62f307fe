import Verif.Proof.AnyScan
import Verif.Spec.Outline

/-! Two scans of pictures with the same outline. -/

namespace StepperPaths.Outline
open Context Control Spec IntegerCurve Props Draw Raster Proof

/-- The first and the last column of a row. -/
theorem row_same {img img' : Image} (O : SameOutline img img') {y s n s' n' : ℕ} (hy : y < img.height)
    (h : findRowInterval (marked img y) img.width = (s, n)) (h' : findRowInterval (marked img' y) img'.width = (s', n')) :
    (n = 0 ↔ n' = 0) ∧ (0 < n → s = s' ∧ n = n') := by
  obtain ⟨a1, a2, a3⟩ := findRowInterval_spec _ _ _ _ h
  obtain ⟨b1, b2, b3⟩ := findRowInterval_spec _ _ _ _ h'
  rw [← O.width] at b1 b2 b3
  simp only [marked, decide_eq_true_eq, decide_eq_false_iff_not] at a1 a2 a3 b1 b2 b3
  have l := O.left y hy
  have r := O.right y hy
  have z : n = 0 ↔ n' = 0 := by
    rw [a3, b3]
    constructor
    · intro k x hx hp
      obtain ⟨z, -, h1, h2⟩ := (r x hx).2 ⟨x, le_rfl, hx, hp⟩
      exact k z h1 h2
    · intro k x hx hp
      obtain ⟨z, -, h1, h2⟩ := (r x hx).1 ⟨x, le_rfl, hx, hp⟩
      exact k z h1 h2
  refine ⟨z, fun hn => ?_⟩
  obtain ⟨p1, p2, p3⟩ := a2 hn
  obtain ⟨q1, q2, q3⟩ := b2 (by omega)
  obtain ⟨u, u1, u2⟩ := (l s (by omega)).1 ⟨s, le_rfl, p2⟩
  obtain ⟨u', u1', u2'⟩ := (l s' (by omega)).2 ⟨s', le_rfl, q2⟩
  obtain ⟨w, w1, w2, w3⟩ := (r (s + n - 1) (by omega)).1 ⟨_, le_rfl, by omega, p3⟩
  obtain ⟨w', w1', w2', w3'⟩ := (r (s' + n' - 1) (by omega)).2 ⟨_, le_rfl, by omega, q3⟩
  have := b1 u (by omega) u2
  have := a1 u' (by omega) u2'
  have := b1 w w2 w3
  have := a1 w' w2' w3'
  omega

/-- The same so far. -/
structure Alike (p p' : Params) (img img' : Image) (c c' : Ctx) : Prop where
  ticks : (c.channels .x).ticks = (c'.channels .x).ticks
  acc : ∀ i, ∀ τ < (c.channels .x).ticks, accAt i c.events τ = accAt i c'.events τ
  weight : ∀ τ < (c.channels .x).ticks, SamePixel p p' img img' c.events c'.events τ

section
variable {p p' : Params} {img img' : Image} {aMax vMax : Axis → ℤ}

theorem Alike.channels {c c' : Ctx} (h : Alike p p' img img' c c') (S : Sync aMax vMax c) (S' : Sync aMax vMax c') (i : Axis) :
    c.channels i = c'.channels i := by
  obtain ⟨-, T, -⟩ := S.reach.inv
  obtain ⟨-, T', -⟩ := S'.reach.inv
  have e1 := T.pos i
  have e2 := T'.pos i
  have e3 := T.vel i
  have e4 := T'.vel i
  rw [same_ticks S] at e1 e3
  rw [same_ticks S', ← h.ticks] at e2 e4
  rw [posAt_congr (h.acc i) le_rfl] at e1
  rw [velAt_congr (h.acc i) le_rfl] at e3
  have e5 : (c.channels i).ticks = (c'.channels i).ticks := by rw [same_ticks S, same_ticks S', h.ticks]
  calc c.channels i = ⟨(c.channels i).pos, (c.channels i).v, (c.channels i).ticks⟩ := rfl
    _ = ⟨(c'.channels i).pos, (c'.channels i).v, (c'.channels i).ticks⟩ := by rw [e1, e3, e5, e2, e4]
    _ = c'.channels i := rfl

theorem Alike.goto {c c' d d' : Ctx} (h : Alike p p' img img' c c') (S : Sync aMax vMax c) (S' : Sync aMax vMax c') {x y vx vy : ℤ}
    (hd : c.stepGotoSpeed x y vx vy = some d) (hd' : c'.stepGotoSpeed x y vx vy = some d') : Alike p p' img img' d d' := by
  obtain ⟨s1, p1⟩ := goto_past S hd
  obtain ⟨s1', p1'⟩ := goto_past S' hd'
  have W := C28_goto_weight _ _ _ _ S.reach _ _ _ _ hd _ (ticks_of_sync S)
  have W' := C28_goto_weight _ _ _ _ S'.reach _ _ _ _ hd' _ (ticks_of_sync S')
  obtain ⟨sx, sy, k, -, M, -⟩ := goto_spec S.inv.1 hd
  obtain ⟨sx', sy', k', -, M', -⟩ := goto_spec S'.inv.1 hd'
  have hch := h.channels S S'
  have el : ∀ j z u, c.limits j z u = c'.limits j z u := fun j z u => by
    unfold Ctx.limits
    rw [hch, S.reach.inv.2.2.1, S.reach.inv.2.2.2.1, S'.reach.inv.2.2.1, S'.reach.inv.2.2.2.1]
  rw [el, el, k'] at k
  cases k
  have t : (d.channels .x).ticks = (d'.channels .x).ticks := by rw [M.ch, M'.ch, hch]
  refine ⟨t, fun i τ hτ => ?_, fun τ hτ => ?_⟩
  · by_cases hc : τ < (c.channels .x).ticks
    · rw [p1.acc i τ (by rwa [same_ticks S]), p1'.acc i τ (by rw [same_ticks S', ← h.ticks]; exact hc), h.acc i τ hc]
    · obtain ⟨n, rfl⟩ := Nat.exists_eq_add_of_le (not_lt.1 hc)
      have hn : n < (expand (both sx sy i)).length := by
        have := M.ch i
        have := congrArg Channel.ticks this
        simp only [same_ticks s1, same_ticks S] at this
        omega
      have a1 := M.accAt i hn
      have a2 := M'.accAt i hn
      rw [same_ticks S] at a1
      rw [same_ticks S', ← h.ticks] at a2
      rw [a1, a2]
  · by_cases hc : τ < (c.channels .x).ticks
    · have := h.weight τ hc
      unfold SamePixel at this ⊢
      rwa [p1.weight 0 τ hc, p1'.weight 0 τ (by rw [← h.ticks]; exact hc)]
    · exact .inl ⟨(W 0 τ).2 (by omega), (W' 0 τ).2 (by have := h.ticks; omega)⟩

theorem Alike.line (O : SameOutline img img') (P : SameScan p p') (S : AnyScan.Setup p img aMax vMax) (S' : AnyScan.Setup p' img' aMax vMax)
    {ltr : Bool} {yn start len rep : ℕ} {c c' d d' : Ctx} (h : Alike p p' img img' c c')
    (R : AnyScan.Ready p aMax vMax (ltr, c)) (R' : AnyScan.Ready p' aMax vMax (ltr, c')) (hin : start + len ≤ img.width) (hyn : yn < img.height)
    (hd : Checked.line p img ltr yn start len rep c = some d) (hd' : Checked.line p' img' ltr yn start len rep c' = some d') :
    Alike p p' img img' d d' := by
  obtain ⟨-, -, c1, L, P1, s1, g1⟩ := AnyScan.line_inner S R hin hd
  obtain ⟨-, -, c1', L', P1', s1', g1'⟩ := AnyScan.line_inner S' R' (by rw [← O.width]; exact hin) hd'
  rw [← P.vX, ← P.resX, ← P.resY, ← P.stepY] at g1'
  have A := h.goto R.sync R'.sync (Checked.stepGotoSpeed_le _ _ _ _ _ _ g1) (Checked.stepGotoSpeed_le _ _ _ _ _ _ g1')
  have b := L.len
  have b' := L'.len
  rw [← A.ticks, ← P.resX] at b'
  simp only at b b'
  refine ⟨by rw [b, b'], fun i τ hτ => ?_, fun τ hτ => ?_⟩
  · by_cases hc : τ < (c1.channels .x).ticks
    · rw [P1.acc i τ (by rwa [same_ticks s1]), P1'.acc i τ (by rw [same_ticks s1', ← A.ticks]; exact hc), A.acc i τ hc]
    · have z : accAt i d.events τ = 0 := by
        have e := velAt_succ i d.events τ
        cases i
        · rw [L.xvel _ (by omega) (by omega), L.xvel _ (by omega) (by omega)] at e
          omega
        · rw [L.yvel _ (by omega) (by omega), L.yvel _ (by omega) (by omega)] at e
          omega
      have z' : accAt i d'.events τ = 0 := by
        have e := velAt_succ i d'.events τ
        have := A.ticks
        cases i
        · rw [L'.xvel _ (by omega) (by omega), L'.xvel _ (by omega) (by omega)] at e
          omega
        · rw [L'.yvel _ (by omega) (by omega), L'.yvel _ (by omega) (by omega)] at e
          omega
      rw [z, z']
  · by_cases hc : τ < (c1.channels .x).ticks
    · have := A.weight τ hc
      unfold SamePixel at this ⊢
      rwa [P1.weight 0 τ hc, P1'.weight 0 τ (by rw [← A.ticks]; exact hc)]
    · right
      obtain ⟨n, rfl⟩ := Nat.exists_eq_add_of_le (not_lt.1 hc)
      have hn : n < len * p.resX := by omega
      have hk : n / p.resX < len := Nat.div_lt_of_lt_mul (by rwa [mul_comm])
      have hj : n % p.resX < p.resX := Nat.mod_lt _ S.res
      have e1 := L.on 0 (n / p.resX) (n % p.resX) hk hj
      have e2 := L'.on 0 (n / p.resX) (n % p.resX) hk (by rw [← P.resX]; exact hj)
      rw [Nat.div_add_mod' n p.resX] at e1
      rw [← P.resX, Nat.div_add_mod' n p.resX, ← A.ticks] at e2
      refine ⟨_, ?_, yn, hyn, e1, e2⟩
      cases ltr
      · show start + len - 1 - n / p.resX < img.width
        generalize n / p.resX = q at hk ⊢
        omega
      · show start + n / p.resX < img.width
        omega

theorem Alike.lines (O : SameOutline img img') (P : SameScan p p') (S : AnyScan.Setup p img aMax vMax) (S' : AnyScan.Setup p' img' aMax vMax)
    {yn start len : ℕ} (hin : start + len ≤ img.width) (hyn : yn < img.height) : ∀ (n rep : ℕ) (ltr : Bool) (c c' : Ctx) (s s' : Bool × Ctx),
    Alike p p' img img' c c' → AnyScan.Ready p aMax vMax (ltr, c) → AnyScan.Ready p' aMax vMax (ltr, c') →
    Checked.lines p img yn start len rep n (ltr, c) = some s → Checked.lines p' img' yn start len rep n (ltr, c') = some s' →
    Alike p p' img img' s.2 s'.2 ∧ s.1 = s'.1 ∧ AnyScan.Ready p aMax vMax s ∧ AnyScan.Ready p' aMax vMax s' := by
  intro n
  induction n with
  | zero =>
    intro rep ltr c c' s s' h R R' hs hs'
    cases hs
    cases hs'
    exact ⟨h, rfl, R, R'⟩
  | succ n ih =>
    intro rep ltr c c' s s' h R R' hs hs'
    rw [Checked.lines] at hs hs'
    obtain ⟨d, h1, h2⟩ := Option.bind_eq_some_iff.1 hs
    obtain ⟨d', h1', h2'⟩ := Option.bind_eq_some_iff.1 hs'
    have A := h.line O P S S' R R' hin hyn h1 h1'
    have Q := (AnyScan.line_inner S R hin h1).1
    have Q' := (AnyScan.line_inner S' R' (by rw [← O.width]; exact hin) h1').1
    exact ih _ _ _ _ _ _ A Q Q' h2 h2'

theorem Alike.rows (O : SameOutline img img') (P : SameScan p p') (S : AnyScan.Setup p img aMax vMax) (S' : AnyScan.Setup p' img' aMax vMax) :
    ∀ (n yn : ℕ) (ltr : Bool) (c c' : Ctx) (s s' : Bool × Ctx), yn + n ≤ img.height →
    Alike p p' img img' c c' → AnyScan.Ready p aMax vMax (ltr, c) → AnyScan.Ready p' aMax vMax (ltr, c') →
    Checked.rows p img yn n (ltr, c) = some s → Checked.rows p' img' yn n (ltr, c') = some s' →
    Alike p p' img img' s.2 s'.2 ∧ AnyScan.Ready p aMax vMax s ∧ AnyScan.Ready p' aMax vMax s' := by
  intro n
  induction n with
  | zero =>
    intro yn ltr c c' s s' _ h R R' hs hs'
    cases hs
    cases hs'
    exact ⟨h, R, R'⟩
  | succ n ih =>
    intro yn ltr c c' s s' hy h R R' hs hs'
    rw [Checked.rows] at hs hs'
    rcases he : findRowInterval (marked img yn) img.width with ⟨start, len⟩
    rcases he' : findRowInterval (marked img' yn) img'.width with ⟨start', len'⟩
    rw [he] at hs
    rw [he'] at hs'
    simp only at hs hs'
    obtain ⟨z, same⟩ := row_same O (by omega) he he'
    by_cases hl : len > 0
    · obtain ⟨rfl, rfl⟩ := same hl
      rw [if_pos hl] at hs hs'
      obtain ⟨⟨b, d⟩, h1, h2⟩ := Option.bind_eq_some_iff.1 hs
      obtain ⟨⟨b', d'⟩, h1', h2'⟩ := Option.bind_eq_some_iff.1 hs'
      have hin := ((findRowInterval_spec _ _ _ _ he).2.1 hl).1
      rw [← P.resY] at h1'
      obtain ⟨A, e, Q, Q'⟩ := Alike.lines O P S S' hin (by omega) _ _ _ _ _ _ _ h R R' h1 h1'
      simp only at e
      subst e
      exact ih _ _ _ _ _ _ (by omega) A Q Q' h2 h2'
    · rw [if_neg hl] at hs
      rw [if_neg (by omega)] at hs'
      exact ih _ _ _ _ _ _ (by omega) h R R' hs hs'

theorem raster_same (O : SameOutline img img') (P : SameScan p p') {c c' : Ctx} (L : Limits aMax vMax) (res : 0 < p.resX)
    (vx0 : -2 ^ 31 ≤ p.vX) (vx1 : p.vX < 2 ^ 31) (h : Checked.raster p img (Ctx.new aMax vMax) = some c)
    (h' : Checked.raster p' img' (Ctx.new aMax vMax) = some c') :
    (∀ i τ, accAt i c.events τ = accAt i c'.events τ) ∧ ∀ τ, SamePixel p p' img img' c.events c'.events τ := by
  unfold Checked.raster at h h'
  simp only at h h'
  obtain ⟨_, e1, r1⟩ := Option.bind_eq_some_iff.1 h
  obtain ⟨⟨b, c1⟩, e2, r2⟩ := Option.bind_eq_some_iff.1 r1
  obtain ⟨c2, e3, r3⟩ := Option.bind_eq_some_iff.1 r2
  obtain ⟨_, e1', r1'⟩ := Option.bind_eq_some_iff.1 h'
  obtain ⟨⟨b', c1'⟩, e2', r2'⟩ := Option.bind_eq_some_iff.1 r1'
  obtain ⟨c2', e3', r3'⟩ := Option.bind_eq_some_iff.1 r2'
  clear h h' r1 r2 r1' r2'
  norm_num at vx0 vx1
  obtain ⟨k1, k2, ticks⟩ := checks_eq e1 vx0 vx1
  obtain ⟨k1', k2', ticks'⟩ := checks_eq e1' (by rwa [← P.vX]) (by rwa [← P.vX])
  have S : AnyScan.Setup p img aMax vMax := ⟨L, res, ticks, k1, vx1, k2⟩
  have S' : AnyScan.Setup p' img' aMax vMax := ⟨L, by rwa [← P.resX], ticks', k1', by rwa [← P.vX], k2'⟩
  have R0 : ∀ q : Params, AnyScan.Ready q aMax vMax (true, (Ctx.new aMax vMax).setWeight q.weight) := fun q => by
    refine ⟨.step (op := .setWeight q.weight) .new trivial rfl, fun i => ?_, fun h => by cases h⟩
    · simpa [Ctx.setWeight, Ctx.new] using (zero_le_one.trans (L.one i))
  have A0 : Alike p p' img img' ((Ctx.new aMax vMax).setWeight p.weight) ((Ctx.new aMax vMax).setWeight p'.weight) :=
    ⟨rfl, fun _ _ h => absurd h (Nat.not_lt_zero _), fun _ h => absurd h (Nat.not_lt_zero _)⟩
  rw [← O.height] at e2'
  obtain ⟨A1, R, R'⟩ := Alike.rows O P S S' _ _ _ _ _ _ _ (by omega) A0 (R0 p) (R0 p') e2 e2'
  have A := A1.goto R.sync R'.sync (Checked.stepGotoSpeed_le _ _ _ _ _ _ e3) (Checked.stepGotoSpeed_le _ _ _ _ _ _ e3')
  obtain ⟨s2, -⟩ := goto_past R.sync (Checked.stepGotoSpeed_le _ _ _ _ _ _ e3)
  obtain ⟨s2', -⟩ := goto_past R'.sync (Checked.stepGotoSpeed_le _ _ _ _ _ _ e3')
  have En := fun w0 τ => C28_end_of_events _ _ _ _ s2.reach r3 _ (ticks_of_sync s2) w0 τ
  have En' := fun w0 τ => C28_end_of_events _ _ _ _ s2'.reach r3' _ (ticks_of_sync s2') w0 τ
  have t := A.ticks
  constructor
  · intro i τ
    by_cases hτ : τ < (c2.channels .x).ticks
    · rw [((En 0 τ).2.1 hτ).2 i, ((En' 0 τ).2.1 (by omega)).2 i, A.acc i τ hτ]
    · have q := (En 0 τ).1 (by omega)
      have q' := (En' 0 τ).1 (by omega)
      cases i
      · rw [q.2.1, q'.2.1]
      · rw [q.2.2, q'.2.2]
  · intro τ
    by_cases hτ : τ < (c2.channels .x).ticks
    · have := A.weight τ hτ
      unfold SamePixel at this ⊢
      rwa [((En 0 τ).2.1 hτ).1, ((En' 0 τ).2.1 (by omega)).1]
    · exact .inl ⟨((En 0 τ).1 (by omega)).1, ((En' 0 τ).1 (by omega)).1⟩

end

end StepperPaths.Outline
