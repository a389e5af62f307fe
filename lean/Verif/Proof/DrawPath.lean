import Verif.Proof.DrawCurves

/-! Lemmas about what `draw_curves` draws. -/

namespace StepperPaths.Draw
open Coords Curves Context IntegerCurve Spec Props

theorem within_refl {r : ℝ} (h : 0 ≤ r) (p : Vec) : Within r p p := by
  unfold Within
  simp [h]

theorem _root_.StepperPaths.Spec.Within.mono {r r' : ℝ} {p q : Vec} (h : Within r p q) (hr : r ≤ r') : Within r' p q :=
  ⟨h.1.trans hr, h.2.trans hr⟩

theorem within_add {r : ℝ} {p q : Vec} (d : Vec) (h : Within r p q) : Within r (p + d) (q + d) := by
  unfold Within at *
  simpa using h

theorem within_short {r : ℝ} {p p' q : Vec} (h : Within r p q) (hs : (p - p').length < 1 / 1000000) :
    Within (r + 1 / 1000000) p' q := by
  have hx : |p.x - p'.x| ≤ (p - p').length := by
    apply Real.abs_le_sqrt
    simp only [vsub]
    nlinarith [mul_self_nonneg (p.y - p'.y)]
  have hy : |p.y - p'.y| ≤ (p - p').length := by
    apply Real.abs_le_sqrt
    simp only [vsub]
    nlinarith [mul_self_nonneg (p.x - p'.x)]
  unfold Within at *
  have h1 := abs_le.1 hx
  have h2 := abs_le.1 hy
  have h3 := abs_le.1 h.1
  have h4 := abs_le.1 h.2
  constructor <;> rw [abs_le] <;> constructor <;> linarith [h1.1, h1.2, h2.1, h2.2, h3.1, h3.2, h4.1, h4.2]

/-- The end of a chain. -/
noncomputable def chainEnd (p : Vec) (l : List Curve) : Vec :=
  l.foldl (fun p k => p + (k.value k.length).1) p

theorem chain_append (p : Vec) (l : List Curve) (k : Curve) :
    chain p (l ++ [k]) = chain p l ++ [(chainEnd p l, k)] := by
  induction l generalizing p with
  | nil => rfl
  | cons a l ih => simp [chain, chainEnd, ih]

theorem chainEnd_append (p : Vec) (l : List Curve) (k : Curve) :
    chainEnd p (l ++ [k]) = chainEnd p l + (k.value k.length).1 := by
  simp [chainEnd]

theorem circle_end (r a b : ℝ) : ((Circle.new r a b).value (Circle.new r a b).length).1 =
    ⟨r * Real.cos b - r * Real.cos a, r * Real.sin b - r * Real.sin a⟩ := by
  by_cases hr : r = 0
  · subst hr
    ext <;> simp [Circle.value, Circle.new, Circle.length]
  · have e : (Circle.new r a b).length * (Circle.new r a b).angleScale + a = b := by
      simp only [Circle.length, Circle.new]
      split
      · next h =>
        rw [abs_of_nonneg (by linarith)]
        field_simp
        ring
      · next h =>
        rw [abs_of_nonpos (by linarith)]
        field_simp
        ring
    have e' : (Circle.new r a b).length * (Circle.new r a b).angleScale + (Circle.new r a b).startAngle = b := e
    simp only [Circle.value, e']
    ext <;> simp [Circle.new] <;> ring

theorem bezier_ends (b : Bezier) : (b.bezierValue 0).1 = ⟨0, 0⟩ ∧ (b.bezierValue 1).1 = b.p2 := by
  constructor <;> ext <;> simp [Bezier.bezierValue]

/-- A Bezier curve that goes somewhere has a length. -/
def LengthOK (e : Env) : Prop := ∀ b : Bezier, b.p2 ≠ ⟨0, 0⟩ → 0 < e.bezierLength b

theorem segInfo_end {e : Env} {p : Vec} {seg : Seg} {curve : Curve} {next : Vec} (hb : LengthOK e)
    (h : e.segInfo p seg = some (curve, next)) :
    next = segEnd p seg ∧ p + (curve.value curve.length).1 = segEnd p seg := by
  have line : ∀ q : Vec, p + ((Line.new (q - p)).info.value (Line.new (q - p)).info.length).1 = q := by
    intro q
    rw [(C43_line (q - p)).2.1]
    ext <;> simp
  cases seg with
  | goTo q => cases h
  | lineTo q =>
    simp only [Env.segInfo, Option.some.injEq, Prod.mk.injEq] at h
    exact ⟨h.2.symm, by rw [← h.1]; exact line q⟩
  | closeTo q =>
    simp only [Env.segInfo, Option.some.injEq, Prod.mk.injEq] at h
    exact ⟨h.2.symm, by rw [← h.1]; exact line q⟩
  | curveTo q c1 c2 =>
    simp only [Env.segInfo, Option.some.injEq, Prod.mk.injEq] at h
    refine ⟨h.2.symm, ?_⟩
    rw [← h.1]
    have hv : ((e.bezierInfo ⟨c1, q - p + c2, q - p⟩).value
        (e.bezierInfo ⟨c1, q - p + c2, q - p⟩).length).1 = q - p := by
      simp only [Env.bezierInfo]
      by_cases h0 : q - p = ⟨0, 0⟩
      · split
        · rw [(bezier_ends _).1, h0]
        · rw [if_pos le_rfl, (bezier_ends _).2]
      · have := hb ⟨c1, q - p + c2, q - p⟩ h0
        rw [if_neg (not_le.2 this), if_pos le_rfl, (bezier_ends _).2]
    rw [hv]
    ext <;> simp [segEnd]
  | arc rx ry a b rot =>
    simp only [Env.segInfo] at h
    split at h
    · cases h
    · cases h
      constructor
      · rw [circle_end]
        rfl
      · change p + ((Circle.new rx a b).value (Circle.new rx a b).length).1 = _
        rw [circle_end]
        rfl

/-- The direction of a segment has no component longer than one. -/
theorem unit_coord (d : Vec) (i : Axis) : |coord d.unit i| ≤ 1 := by
  have h0 : 0 ≤ d.length := Real.sqrt_nonneg _
  have hx : |d.x| ≤ d.length := by
    apply Real.abs_le_sqrt
    nlinarith [mul_self_nonneg d.y]
  have hy : |d.y| ≤ d.length := by
    apply Real.abs_le_sqrt
    nlinarith [mul_self_nonneg d.x]
  cases i
  · simp only [coord, Vec.unit]
    rw [abs_div, abs_of_nonneg h0]
    exact div_le_one_of_le₀ hx h0
  · simp only [coord, Vec.unit]
    rw [abs_div, abs_of_nonneg h0]
    exact div_le_one_of_le₀ hy h0

theorem segInfo_dir {e : Env} {p : Vec} {seg : Seg} {curve : Curve} {next : Vec}
    (h : e.segInfo p seg = some (curve, next)) (s : ℝ) (i : Axis) : |coord (curve.value s).2 i| ≤ 1 := by
  have line : ∀ q : Vec, |coord ((Line.new q).info.value s).2 i| ≤ 1 := by
    intro q
    simp only [Line.info, Line.value, Line.new]
    split
    · cases i <;> simp [coord]
    · exact unit_coord q i
  cases seg with
  | goTo q => cases h
  | lineTo q => cases h; exact line _
  | closeTo q => cases h; exact line _
  | curveTo q c1 c2 =>
    cases h
    exact unit_coord _ i
  | arc rx ry a b rot =>
    simp only [Env.segInfo] at h
    split at h
    · cases h
    · cases h
      have hs : ∀ x, |Real.sin x| ≤ 1 := Real.abs_sin_le_one
      have hc : ∀ x, |Real.cos x| ≤ 1 := Real.abs_cos_le_one
      simp only [Circle.info, Circle.value]
      split <;> cases i <;> simp [coord, hs, hc]

theorem concat_dir {e : Env} {c : Concat} {b : ℝ} (hb : 0 ≤ b) (i : Axis)
    (h : ∀ part ∈ c, ∀ s, |coord (part.curve.value s).2 i| ≤ b) (s : ℝ) :
    |coord ((e.concatInfo c).value s).2 i| ≤ b := by
  have zero : |coord (⟨0, 0⟩ : Vec) i| ≤ b := by cases i <;> simpa [coord] using hb
  simp only [Env.concatInfo]
  unfold Concat.valueAt
  by_cases h0 : c.length = 0
  · rw [if_pos h0]
    exact zero
  · rw [if_neg h0]
    simp only [Option.bind_eq_bind]
    cases e1 : c[min (e.find c s) (c.length - 1)]? with
    | none => simpa using zero
    | some seg =>
      have hm := List.mem_of_getElem? e1
      simp only [Option.bind_some]
      split
      · cases e2 : c[min (e.find c s) (c.length - 1) - 1]? with
        | none => simpa using zero
        | some prev =>
          simp only [Option.bind_some, Option.pure_def, Option.getD_some]
          exact h seg hm _
      · simp only [Option.pure_def, Option.getD_some]
        exact h seg hm _

/-! ### What is drawn -/

/-- A piece as intended and as drawn. -/
def Shape (e : Env) (r : ℝ) (a : Vec × Seg) (b : Vec × Curve) : Prop :=
  Within r a.1 b.1 ∧ ∃ next, e.segInfo a.1 a.2 = some (b.2, next)

theorem Shape.mono {e : Env} {r r' : ℝ} {a : Vec × Seg} {b : Vec × Curve} (h : Shape e r a b) (hr : r ≤ r') :
    Shape e r' a b := ⟨h.1.mono hr, h.2⟩

theorem map_add (c : Concat) (k : Curve) : (c.add k).map Part.curve = c.map Part.curve ++ [k] := by
  simp [Concat.add]

theorem pieces_append (l k : List (Vec × List Curve)) : pieces (l ++ k) = pieces l ++ pieces k := by
  simp [pieces]

theorem pieces_one (p : Vec) (l : List Curve) : pieces [(p, l)] = chain p l := by simp [pieces]

theorem curvesOf_append (l k : List (Vec × Concat)) : curvesOf (l ++ k) = curvesOf l ++ curvesOf k := by
  simp [curvesOf]

/-- The position of the machine at some time between `t` and `t'` is `p`. -/
def Visited (e : Env) (es : List Event) (t t' : ℕ) (p : Vec) : Prop :=
  ∃ T, t ≤ T ∧ T ≤ t' ∧ ∀ i, posAt i es T = round (coord p i * e.stepScale i)

theorem atMachine_true {e : Env} {s : Pen} {p : Vec} (h : s.atMachine e p = some true) :
    ∀ i, (s.ctx.channels i).pos = round (coord p i * e.stepScale i) := by
  unfold Pen.atMachine at h
  obtain ⟨x, hx, h⟩ := Option.bind_eq_some_iff.1 h
  split at h
  · cases h
  · next hne =>
    obtain ⟨y, hy, h⟩ := Option.bind_eq_some_iff.1 h
    simp only [Option.pure_def, Option.some.injEq, decide_eq_true_eq] at h
    rw [toSteps_eq hx] at hne
    rw [toSteps_eq hy] at h
    intro i
    cases i
    · exact (not_not.1 hne).symm
    · exact h.symm

theorem finish_pieces {aMax vMax : Axis → ℤ} {e : Env} {v : ℝ} {segs : List Seg} {s s' : Pen} {k t : ℕ}
    (hb : LengthOK e) (hs : Sync aMax vMax s.ctx) (ht : t ≤ (s.ctx.channels .x).ticks)
    (h : s.finish e v segs = some s')
    (hw : Within (k * (1 / 1000000)) s.current (chainEnd s.start (s.curves.map Part.curve))) :
    ∃ segs' l, Omit (Visited e s'.ctx.events t (s'.ctx.channels .x).ticks) segs segs' ∧
      pieces (curvesOf s'.drawn) =
        pieces (curvesOf s.drawn) ++ chain s.start (s.curves.map Part.curve) ++ l ∧
      List.Forall₂ (Shape e ((k + shortCloses s.current segs' : ℕ) * (1 / 1000000)))
        (intended s.current segs') l := by
  have flush : ∀ {s s1 : Pen}, s.flush e v = some s1 → pieces (curvesOf s1.drawn) =
      pieces (curvesOf s.drawn) ++ chain s.start (s.curves.map Part.curve) := by
    intro s s1 h
    obtain ⟨err, -, h2⟩ := flush_eq h
    rw [h2]
    simp only [curvesOf_append, pieces_append]
    congr 1
    exact pieces_one _ _
  have imp : ∀ {a b : ℕ} {x : List (Vec × Seg)} {l : List (Vec × Curve)}, a ≤ b →
      List.Forall₂ (Shape e (a * (1 / 1000000))) x l → List.Forall₂ (Shape e (b * (1 / 1000000))) x l := by
    intro a b x l hab h
    have : (a : ℝ) ≤ b := by exact_mod_cast hab
    exact h.imp (fun _ _ hh => hh.mono (by linarith))
  have le : ∀ {a b : ℕ}, a ≤ b → (a : ℝ) * (1 / 1000000) ≤ (b : ℝ) * (1 / 1000000) := by
    intro a b hab
    have : (a : ℝ) ≤ b := by exact_mod_cast hab
    linarith
  induction segs generalizing s k with
  | nil =>
    rw [finish_nil] at h
    exact ⟨[], [], .nil, by rw [flush h]; simp, .nil⟩
  | cons seg segs ih =>
    obtain ⟨s1, h1, h2⟩ := finish_cons.1 h
    obtain ⟨hs1, hl1⟩ := step_later hs h1
    have ht1 := ht.trans hl1.past.ticks
    rcases step_eq h1 with ⟨p, rfl, h1⟩ | ⟨p, rfl, hsc, rfl⟩ | ⟨hd, info, next, hi, h1⟩
    · rcases goTo_eq h1 with ⟨hat, rfl⟩ | ⟨-, s2, h3, rfl⟩
      · obtain ⟨segs', l, a, b, c⟩ := ih hs1 ht1 h2 hw
        refine ⟨segs', l, .skip ?_ a, b, c⟩
        obtain ⟨-, hl⟩ := finish_later hs1 h2
        refine ⟨_, ht, hl.past.ticks, fun i => ?_⟩
        have e1 : (s.ctx.channels .x).ticks = (s.ctx.channels i).ticks := by
          cases i
          · rfl
          · exact hs.inv.2.1
        rw [← atMachine_true hat i, hs.reach.inv.2.1.pos i, e1]
        unfold posAt
        rw [played_congr (fun τ hτ => hl.past.acc i τ hτ)]
      · obtain ⟨err, -, h4⟩ := flush_eq h3
        have e1 : s2.curves = [] := by rw [h4]
        obtain ⟨segs', l, a, b, c⟩ := ih (k := 0) hs1 ht1 h2 (by
          simp only [e1, List.map_nil]
          exact within_refl (by simp) _)
        refine ⟨.goTo p :: segs', l, .keep _ a, ?_, ?_⟩
        · rw [b]
          simp only [e1, List.map_nil, chain, List.append_nil]
          rw [flush h3]
        · have nd : ¬ Draws s.current (.goTo p) := fun hd => hd
          have ns : ¬ ShortClose s.current (.goTo p) := fun hd => hd
          simp only [intended, nd, if_false, segEnd, shortCloses, ns] at c ⊢
          exact imp (by omega) c
    · obtain ⟨segs', l, a, b, c⟩ := ih (k := k + 1) hs1 ht1 h2 (by
        push_cast
        rw [add_mul, one_mul]
        exact within_short hw hsc)
      refine ⟨.closeTo p :: segs', l, .keep _ a, b, ?_⟩
      have nd : ¬ Draws s.current (.closeTo p) := fun hd => hd hsc
      simp only [intended, nd, if_false, shortCloses, hsc, if_true, segEnd] at c ⊢
      exact imp (by omega) c
    · obtain ⟨en, ee⟩ := segInfo_end hb hi
      have nsc : ¬ ShortClose s.current seg := by
        cases seg <;> simp_all [Draws, ShortClose]
      have hint : ∀ l, intended s.current (seg :: l) = (s.current, seg) :: intended next l := by
        intro l
        simp only [intended, hd, if_true, en]
      have hsh : ∀ l, shortCloses s.current (seg :: l) = shortCloses next l := by
        intro l
        simp only [shortCloses, nsc, if_false, Nat.zero_add, en]
      rcases add_eq h1 with ⟨-, s2, h3, rfl⟩ | ⟨-, rfl⟩
      · obtain ⟨segs', l, a, b, c⟩ := ih (k := 0) hs1 ht1 h2 (by
          simp only [map_add, List.map_nil, List.nil_append, chainEnd, List.foldl_cons, List.foldl_nil]
          rw [ee, ← en]
          exact within_refl (by simp) _)
        refine ⟨seg :: segs', (s.current, info) :: l, .keep _ a, ?_, ?_⟩
        · rw [b, flush h3]
          simp [map_add, chain]
        · rw [hint, hsh]
          refine .cons ⟨within_refl (by positivity) _, next, hi⟩ ?_
          exact imp (by simp only; omega) c
      · obtain ⟨segs', l, a, b, c⟩ := ih (k := k) hs1 ht1 h2 (by
          simp only [map_add, chainEnd_append]
          rw [en, ← ee]
          exact within_add _ hw)
        refine ⟨seg :: segs', (chainEnd s.start (s.curves.map Part.curve), info) :: l, .keep _ a, ?_, ?_⟩
        · rw [b]
          simp [map_add, chain_append]
        · rw [hint, hsh]
          exact .cons ⟨hw.mono (le (by omega)), next, hi⟩ c

/-- Collected curves are put together with `ConcatCurve::add`. -/
theorem finish_glue {e : Env} {v : ℝ} {segs : List Seg} {s s' : Pen} (h : s.finish e v segs = some s')
    (h0 : s.curves = glue (s.curves.map Part.curve))
    (hd : ∀ st ∈ s.drawn, st.2 = glue (st.2.map Part.curve)) :
    ∀ st ∈ s'.drawn, st.2 = glue (st.2.map Part.curve) := by
  have flush : ∀ {s s1 : Pen}, s.flush e v = some s1 → s.curves = glue (s.curves.map Part.curve) →
      (∀ st ∈ s.drawn, st.2 = glue (st.2.map Part.curve)) →
      ∀ st ∈ s1.drawn, st.2 = glue (st.2.map Part.curve) := by
    intro s s1 h h0 hd st hst
    obtain ⟨err, -, h2⟩ := flush_eq h
    rw [h2] at hst
    simp only [List.mem_append, List.mem_singleton] at hst
    rcases hst with hst | rfl
    · exact hd st hst
    · exact h0
  have addg : ∀ (c : Concat) (k : Curve), c = glue (c.map Part.curve) →
      c.add k = glue ((c.add k).map Part.curve) := by
    intro c k hc
    rw [map_add, glue_append, ← hc]
  induction segs generalizing s with
  | nil => exact flush h h0 hd
  | cons seg segs ih =>
    obtain ⟨s1, h1, h2⟩ := finish_cons.1 h
    refine ih h2 ?_ ?_
    · rcases step_eq h1 with ⟨p, -, h⟩ | ⟨p, -, -, rfl⟩ | ⟨-, info, next, -, h⟩
      · rcases goTo_eq h with ⟨-, rfl⟩ | ⟨-, s2, h3, rfl⟩
        · exact h0
        · obtain ⟨err, -, h4⟩ := flush_eq h3
          have : s2.curves = [] := by rw [h4]
          simp [this, glue]
      · exact h0
      · rcases add_eq h with ⟨-, s2, h3, rfl⟩ | ⟨-, rfl⟩
        · exact addg [] info rfl
        · exact addg _ info h0
    · rcases step_flush h1 with ⟨-, -, h3⟩ | ⟨s2, h4, -, -, h3⟩
      · rw [h3]; exact hd
      · rw [h3]; exact flush h4 h0 hd

/-! ### Corners -/

/-- No corner inside. -/
def Smooth (l : Concat) : Prop := List.IsChain (fun a b => ¬ Corner a.curve b.curve) l

/-- The direction kept for the comparison is that of the last curve. -/
def Remembers (s : Pen) : Prop :=
  ∀ part, s.curves.getLast? = some part → s.prevDir = some (part.curve.value part.curve.length).2

theorem getLast_add (c : Concat) (k : Curve) : ∃ part, (c.add k).getLast? = some part ∧ part.curve = k := by
  simp [Concat.add]

theorem add_split (c : Concat) (k : Curve) : ∃ part, c.add k = c ++ [part] ∧ part.curve = k :=
  ⟨_, rfl, rfl⟩

theorem step_remembers {e : Env} {v : ℝ} {seg : Seg} {s s' : Pen} (h : s.step e v seg = some s')
    (hr : Remembers s) : Remembers s' := by
  rcases step_eq h with ⟨p, -, h⟩ | ⟨p, -, -, rfl⟩ | ⟨-, info, next, -, h⟩
  · rcases goTo_eq h with ⟨-, rfl⟩ | ⟨-, s2, h3, rfl⟩
    · exact hr
    · obtain ⟨err, -, h4⟩ := flush_eq h3
      have : s2.curves = [] := by rw [h4]
      intro part hp
      simp [this] at hp
  · exact hr
  · rcases add_eq h with ⟨-, s2, h3, rfl⟩ | ⟨-, rfl⟩
    · obtain ⟨part, h5, h6⟩ := getLast_add [] info
      intro part' hp
      simp only at hp
      rw [h5] at hp
      cases hp
      rw [h6]
    · obtain ⟨part, h5, h6⟩ := getLast_add s.curves info
      intro part' hp
      simp only at hp
      rw [h5] at hp
      cases hp
      rw [h6]

theorem finish_smooth {e : Env} {v : ℝ} {segs : List Seg} {s s' : Pen} (h : s.finish e v segs = some s')
    (hr : Remembers s) (h0 : Smooth s.curves) (hd : ∀ st ∈ s.drawn, Smooth st.2) :
    ∀ st ∈ s'.drawn, Smooth st.2 := by
  have flush : ∀ {s s1 : Pen}, s.flush e v = some s1 → Smooth s.curves →
      (∀ st ∈ s.drawn, Smooth st.2) → ∀ st ∈ s1.drawn, Smooth st.2 := by
    intro s s1 h h0 hd st hst
    obtain ⟨err, -, h2⟩ := flush_eq h
    rw [h2] at hst
    simp only [List.mem_append, List.mem_singleton] at hst
    rcases hst with hst | rfl
    · exact hd st hst
    · exact h0
  induction segs generalizing s with
  | nil => exact flush h h0 hd
  | cons seg segs ih =>
    obtain ⟨s1, h1, h2⟩ := finish_cons.1 h
    refine ih h2 (step_remembers h1 hr) ?_ ?_
    · rcases step_eq h1 with ⟨p, -, h⟩ | ⟨p, -, -, rfl⟩ | ⟨-, info, next, -, h⟩
      · rcases goTo_eq h with ⟨-, rfl⟩ | ⟨-, s2, h3, rfl⟩
        · exact h0
        · obtain ⟨err, -, h4⟩ := flush_eq h3
          have : s2.curves = [] := by rw [h4]
          simp [this, Smooth]
      · exact h0
      · rcases add_eq h with ⟨-, s2, h3, rfl⟩ | ⟨ht, rfl⟩
        · simp [Smooth, Concat.add]
        · obtain ⟨part, h5, h6⟩ := add_split s.curves info
          simp only [h5]
          refine List.IsChain.append h0 (List.isChain_singleton _) ?_
          intro x hx y hy
          simp only [List.head?_cons, Option.mem_def, Option.some.injEq] at hy
          subst hy
          rw [h6]
          intro hc
          exact ht ⟨_, hr x hx, hc⟩
    · rcases step_flush h1 with ⟨-, -, h3⟩ | ⟨s2, h4, -, -, h3⟩
      · rw [h3]; exact hd
      · rw [h3]; exact flush h4 h0 hd

/-- A corner between two strokes. -/
def CornerBetween (a b : Vec × Concat) : Prop :=
  ∃ x ∈ a.2.getLast?, ∃ y ∈ b.2.head?, Corner x.curve y.curve

/-- Without moves, strokes only end at corners. -/
theorem finish_corners {e : Env} {v : ℝ} {segs : List Seg} {s s' : Pen} (h : s.finish e v segs = some s')
    (hg : ∀ p, Seg.goTo p ∉ segs) (hr : Remembers s)
    (h0 : s.curves = [] → s.drawn = [] ∧ s.prevDir = none)
    (hc : List.IsChain CornerBetween (s.drawn ++ [(s.start, s.curves)])) :
    List.IsChain CornerBetween s'.drawn := by
  induction segs generalizing s with
  | nil =>
    rw [finish_nil] at h
    obtain ⟨err, -, h2⟩ := flush_eq h
    rw [h2]
    exact hc
  | cons seg segs ih =>
    obtain ⟨s1, h1, h2⟩ := finish_cons.1 h
    have hg' : ∀ p, Seg.goTo p ∉ segs := fun p hp => hg p (List.mem_cons_of_mem _ hp)
    have hr1 := step_remembers h1 hr
    rcases step_eq h1 with ⟨p, rfl, -⟩ | ⟨p, -, -, rfl⟩ | ⟨-, info, next, -, h⟩
    · exact absurd List.mem_cons_self (hg p)
    · exact ih h2 hg' hr1 h0 hc
    · rcases add_eq h with ⟨ht, s2, h3, rfl⟩ | ⟨ht, rfl⟩
      · obtain ⟨part, h5, h6⟩ := add_split [] info
        obtain ⟨err, -, h4⟩ := flush_eq h3
        have e1 : s2.drawn = s.drawn ++ [(s.start, s.curves)] := by rw [h4]
        obtain ⟨d, hd1, hd2⟩ := ht
        have hne : s.curves ≠ [] := by
          intro hc
          rw [(h0 hc).2] at hd1
          cases hd1
        refine ih h2 hg' hr1 (fun hc => ?_) ?_
        · simp [h5] at hc
        · simp only [e1, h5, List.nil_append]
          refine List.IsChain.append hc (List.isChain_singleton _) ?_
          intro x hx y hy
          simp only [List.getLast?_append, List.getLast?_singleton, Option.some_or, Option.mem_def,
            Option.some.injEq] at hx
          simp only [List.head?_cons, Option.mem_def, Option.some.injEq] at hy
          subst hx hy
          obtain ⟨l, hl⟩ := Option.ne_none_iff_exists'.1 (fun hc => hne (List.getLast?_eq_none_iff.1 hc))
          refine ⟨l, hl, part, rfl, ?_⟩
          have := hr l hl
          rw [hd1, Option.some.injEq] at this
          rw [h6]
          subst this
          exact hd2
      · obtain ⟨part, h5, h6⟩ := add_split s.curves info
        refine ih h2 hg' hr1 (fun hc => ?_) ?_
        · simp [h5] at hc
        · simp only [h5]
          by_cases hne : s.curves = []
          · rw [(h0 hne).1]
            exact List.isChain_singleton _
          · have hh := List.isChain_append.1 hc
            refine List.IsChain.append hh.1 (List.isChain_singleton _) ?_
            intro x hx y hy
            simp only [List.head?_cons, Option.mem_def, Option.some.injEq] at hy
            subst hy
            obtain ⟨a, ha, b, hb, hcor⟩ := hh.2.2 x hx (s.start, s.curves) rfl
            refine ⟨a, ha, b, ?_, hcor⟩
            simp only
            rw [List.head?_append_of_ne_nil _ hne]
            exact hb

end StepperPaths.Draw
