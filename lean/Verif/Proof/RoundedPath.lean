import Verif.Proof.RoundedLine
import Verif.Proof.DrawPath
import Verif.Spec.RoundedPath

/-! Which strokes are drawn with rounding (as `Verif.Proof.DrawPath`). -/

namespace StepperPaths.Rounded
open Coords Curves Context IntegerCurve Spec Props Draw

theorem atMachine_true {fl : ℝ → ℝ} {e : Env} {s : Pen} {p : Vec} (h : atMachine fl e s p = some true) :
    ∀ i, (s.ctx.channels i).pos = Draw.round (fl (coord p i * e.stepScale i)) := by
  unfold atMachine at h
  obtain ⟨x, hx, h⟩ := Option.bind_eq_some_iff.1 h
  split at h
  · cases h
  · next hne =>
    obtain ⟨y, hy, h⟩ := Option.bind_eq_some_iff.1 h
    simp only [Option.pure_def, Option.some.injEq, decide_eq_true_eq] at h
    rw [toSteps_eq hx] at hne
    rw [toSteps_eq hy] at h
    intro i
    cases i
    · exact (not_not.1 hne).symm
    · exact h.symm

/-- Comparing the distance of two points with 0.000001. -/
theorem short_cases {fl : ℝ → ℝ} (R : FloatRounding fl) (a b : Vec) :
    (vlength fl (vsub fl a b) < fl (1 / 1000000) → (a - b).length ≤ 1 / 1000000 + 1 / 10 ^ 12) ∧
    (¬ vlength fl (vsub fl a b) < fl (1 / 1000000) → 1 / 1000000 - 1 / 10 ^ 12 ≤ (a - b).length) := by
  have hm := abs_le.1 (R.rel (x := 1 / 1000000) (M := 1 / 1000000) (by norm_num) (by norm_num))
  constructor
  · intro h
    by_contra hc
    rw [not_le] at hc
    have h1 := abs_le.1 (line_near R (p := a) (s := b) (le_trans (by norm_num) hc.le)).1
    have : (a - b).length - 9 * (a - b).length / 2 ^ 52 < 1 / 1000000 + 1 / 1000000 / 2 ^ 52 := by linarith [h1.1, hm.2]
    norm_num at *
    linarith
  · intro h
    by_contra hc
    rw [not_le] at hc
    apply h
    have hx := le_length (a - b) .x
    have hy := le_length (a - b) .y
    simp only [coord] at hx hy
    set N := (a - b).length with hN
    have hsq : N * N = (a - b).x * (a - b).x + (a - b).y * (a - b).y := by
      rw [hN]; unfold Vec.length
      exact Real.mul_self_sqrt (by nlinarith [mul_self_nonneg (a - b).x, mul_self_nonneg (a - b).y])
    have hN0 : 0 ≤ N := Real.sqrt_nonneg _
    have ex := R.rel (x := (a - b).x) (M := 1 / 1000000) (by linarith [show N ≤ 1 / 1000000 by norm_num at *; linarith]) (by norm_num)
    have ey := R.rel (x := (a - b).y) (M := 1 / 1000000) (by linarith [show N ≤ 1 / 1000000 by norm_num at *; linarith]) (by norm_num)
    have hd := length_near (vsub fl a b) (a - b)
    have e1 : (vsub fl a b).x = fl (a - b).x := rfl
    have e2 : (vsub fl a b).y = fl (a - b).y := rfl
    rw [e1, e2] at hd
    by_cases hbig : 1 / 2 ^ 50 ≤ (vsub fl a b).length
    · have h1 := abs_le.1 (vlength_near R hbig)
      have h2 := abs_le.1 hd
      norm_num at *
      linarith
    · rw [not_le] at hbig
      have kx := le_length (vsub fl a b) .x
      have ky := le_length (vsub fl a b) .y
      simp only [coord] at kx ky
      set d := vsub fl a b with hdd
      have sqb : ∀ x : ℝ, |x| ≤ 1 / 2 ^ 50 → |x * x| ≤ 1 / 2 ^ 100 := by
        intro x hx
        rw [abs_mul]
        calc |x| * |x| ≤ 1 / 2 ^ 50 * (1 / 2 ^ 50) := mul_le_mul hx hx (abs_nonneg _) (by norm_num)
          _ = 1 / 2 ^ 100 := by norm_num
      have bx := sqb d.x (kx.trans hbig.le)
      have by' := sqb d.y (ky.trans hbig.le)
      have fx := abs_le.1 (R.rel bx (by norm_num))
      have fy := abs_le.1 (R.rel by' (by norm_num))
      have bx := abs_le.1 bx
      have by' := abs_le.1 by'
      have s1 : |fl (d.x * d.x) + fl (d.y * d.y)| ≤ 1 / 2 ^ 98 := by
        rw [abs_le]
        norm_num at *
        constructor <;> linarith
      have fs := abs_le.1 (R.rel s1 (by norm_num))
      have s1 := abs_le.1 s1
      have s2 : √(fl (fl (d.x * d.x) + fl (d.y * d.y))) ≤ 1 / 2 ^ 48 := by
        rw [Real.sqrt_le_left (by norm_num)]
        norm_num at *
        linarith
      have s3 := R.rel (x := √(fl (fl (d.x * d.x) + fl (d.y * d.y)))) (M := 1 / 2 ^ 48)
        (by rw [abs_of_nonneg (Real.sqrt_nonneg _)]; exact s2) (by norm_num)
      have s3 := abs_le.1 s3
      have : vlength fl d = fl √(fl (fl (d.x * d.x) + fl (d.y * d.y))) := rfl
      rw [this]
      norm_num at *
      linarith

/-- The ways through one pass of the loop, with what they say about the segment. -/
theorem step_cases {fl : ℝ → ℝ} (R : FloatRounding fl) {e : Env} {v : ℝ} {s s' : Pen} {seg : Seg}
    (h : step fl e v s seg = some s') :
    (∃ p, seg = .goTo p ∧ goTo fl e v s p = some s') ∨
    (∃ p, seg = .closeTo p ∧ (s.current - p).length ≤ 1 / 1000000 + 1 / 10 ^ 12 ∧ s' = { s with current := p }) ∨
    FloatDraws s.current seg ∧
      ∃ info next, segInfo fl e s.current seg = some (info, next) ∧ add fl e v s info next = some s' := by
  cases seg with
  | goTo p => exact .inl ⟨p, rfl, h⟩
  | lineTo p =>
    simp only [step] at h
    obtain ⟨⟨a, b⟩, h1, h2⟩ := Option.bind_eq_some_iff.1 h
    exact .inr (.inr ⟨trivial, a, b, h1, h2⟩)
  | curveTo p c1 c2 =>
    simp only [step] at h
    obtain ⟨⟨a, b⟩, h1, h2⟩ := Option.bind_eq_some_iff.1 h
    exact .inr (.inr ⟨trivial, a, b, h1, h2⟩)
  | arc rx ry a b r =>
    simp only [step] at h
    obtain ⟨⟨a, b⟩, h1, h2⟩ := Option.bind_eq_some_iff.1 h
    exact .inr (.inr ⟨trivial, a, b, h1, h2⟩)
  | closeTo p =>
    simp only [step] at h
    by_cases hs : vlength fl (vsub fl s.current p) < fl (1 / 1000000)
    · rw [if_pos hs] at h
      cases h
      exact .inr (.inl ⟨p, rfl, (short_cases R _ _).1 hs, rfl⟩)
    · rw [if_neg hs] at h
      obtain ⟨⟨a, b⟩, h1, h2⟩ := Option.bind_eq_some_iff.1 h
      exact .inr (.inr ⟨(short_cases R _ _).2 hs, a, b, h1, h2⟩)

theorem segInfo_end {fl : ℝ → ℝ} {e : Env} {p : Vec} {seg : Seg} {curve : Curve} {next : Vec}
    (h : segInfo fl e p seg = some (curve, next)) : FloatEnd e p seg next := by
  cases seg with
  | goTo q => cases h
  | lineTo q => cases h; rfl
  | closeTo q => cases h; rfl
  | curveTo q c1 c2 => exact ⟨curve, h⟩
  | arc rx ry a b r => exact ⟨curve, h⟩

theorem within_shift {r d : ℝ} {p p' q : Vec} (h : Within r p q) (hs : (p - p').length ≤ d) : Within (r + d) p' q := by
  have hx := (le_length (p - p') .x).trans hs
  have hy := (le_length (p - p') .y).trans hs
  simp only [coord] at hx hy
  unfold Within at *
  have h1 := abs_le.1 hx
  have h2 := abs_le.1 hy
  have h3 := abs_le.1 h.1
  have h4 := abs_le.1 h.2
  have e1 : (p - p').x = p.x - p'.x := rfl
  have e2 : (p - p').y = p.y - p'.y := rfl
  rw [e1] at h1
  rw [e2] at h2
  constructor <;> rw [abs_le] <;> constructor <;> linarith [h1.1, h1.2, h2.1, h2.2, h3.1, h3.2, h4.1, h4.2]

/-- The limit for closing lines. -/
noncomputable def gap : ℝ := 1 / 1000000 + 1 / 10 ^ 12

theorem map_add (fl : ℝ → ℝ) (c : Concat) (k : Curve) : (concatAdd fl c k).map Part.curve = c.map Part.curve ++ [k] := by
  simp [concatAdd]

theorem _root_.StepperPaths.Spec.FloatGroup.mono {fl : ℝ → ℝ} {e : Env} {a b : ℕ} {g : List (Vec × Seg)} {st : Vec × List Curve} (hab : a ≤ b)
    (h : FloatGroup fl e (a * gap) g st) : FloatGroup fl e (b * gap) g st := by
  refine ⟨h.1, fun x hx => (h.2 x hx).mono ?_⟩
  have h1 : (a : ℝ) ≤ b := by exact_mod_cast hab
  have h2 : (0 : ℝ) ≤ gap := by unfold gap; norm_num
  exact mul_le_mul_of_nonneg_right h1 h2

theorem finish_groups {aMax vMax : Axis → ℤ} {fl : ℝ → ℝ} (R : FloatRounding fl) {e : Env} {v : ℝ} {segs : List Seg}
    {s s' : Pen} {k t : ℕ} {g : List (Vec × Seg)} (hs : Sync aMax vMax s.ctx) (ht : t ≤ (s.ctx.channels .x).ticks)
    (h : finish fl e v segs s = some s') (hg : FloatGroup fl e (k * gap) g (s.start, s.curves.map Part.curve))
    (h0 : g = [] → Within (k * gap) s.current s.start) :
    ∃ segs' n l G D, Omit (FloatVisited fl e s'.ctx.events t (s'.ctx.channels .x).ticks) segs segs' ∧
      FloatIntended e s.current segs' n l ∧ s'.drawn = s.drawn ++ D ∧ G.flatten = g ++ l ∧
      List.Forall₂ (FloatGroup fl e ((k + n : ℕ) * gap)) G (curvesOf D) := by
  have flush : ∀ {s s1 : Pen}, flush fl e v s = some s1 → s1.drawn = s.drawn ++ [(s.start, s.curves)] := by
    intro s s1 h
    obtain ⟨err, -, h2⟩ := flush_eq h
    rw [h2]
  have imp : ∀ {a b : ℕ} {x : List (List (Vec × Seg))} {l : List (Vec × List Curve)}, a ≤ b →
      List.Forall₂ (FloatGroup fl e (a * gap)) x l → List.Forall₂ (FloatGroup fl e (b * gap)) x l :=
    fun hab h => h.imp (fun _ _ hh => hh.mono hab)
  induction segs generalizing s k g with
  | nil =>
    rw [finish_nil] at h
    exact ⟨[], 0, [], [g], [(s.start, s.curves)], .nil, .nil _, flush h, by simp, .cons hg .nil⟩
  | cons seg segs ih =>
    obtain ⟨s1, h1, h2⟩ := finish_cons.1 h
    obtain ⟨hs1, hl1⟩ := step_later hs h1
    have ht1 := ht.trans hl1.past.ticks
    rcases step_cases R h1 with ⟨p, rfl, h1⟩ | ⟨p, rfl, hsc, rfl⟩ | ⟨hd, info, next, hi, h1⟩
    · rcases goTo_eq h1 with ⟨hat, rfl⟩ | ⟨-, s2, h3, rfl⟩
      · obtain ⟨segs', n, l, G, D, a, b, c⟩ := ih hs1 ht1 h2 hg h0
        refine ⟨segs', n, l, G, D, .skip ?_ a, b, c⟩
        obtain ⟨-, hl⟩ := finish_later hs1 h2
        refine ⟨_, ht, hl.past.ticks, fun i => ?_⟩
        have e1 : (s.ctx.channels .x).ticks = (s.ctx.channels i).ticks := by
          cases i
          · rfl
          · exact hs.inv.2.1
        rw [← atMachine_true hat i, hs.reach.inv.2.1.pos i, e1]
        unfold posAt
        rw [played_congr (fun τ hτ => hl.past.acc i τ hτ)]
      · obtain ⟨err, -, h4⟩ := flush_eq h3
        have e1 : s2.curves = [] := by rw [h4]
        obtain ⟨segs', n, l, G, D, a, b, c, d, f⟩ := ih (k := 0) (g := []) hs1 ht1 h2
          ⟨by simp only [e1, List.map_nil]; exact .nil, by simp⟩ (fun _ => within_refl (by simp) _)
        refine ⟨.goTo p :: segs', n, l, g :: G, (s.start, s.curves) :: D, .keep _ a, .move b, ?_, ?_, ?_⟩
        · rw [c, flush h3]
          simp
        · simp [d]
        · exact .cons (hg.mono (by omega)) (imp (by omega) f)
    · have e1 : ((k + 1 : ℕ) : ℝ) * gap = k * gap + gap := by push_cast; ring
      obtain ⟨segs', n, l, G, D, a, b, c, d, f⟩ := ih (k := k + 1) (g := g) hs1 ht1 h2 (hg.mono (by omega))
        (fun hn => by rw [e1]; exact within_shift (h0 hn) hsc)
      exact ⟨.closeTo p :: segs', n + 1, l, G, D, .keep _ a, .short hsc b, c, d, imp (by omega) f⟩
    · have hend := segInfo_end hi
      rcases add_eq h1 with ⟨-, s2, h3, rfl⟩ | ⟨-, rfl⟩
      · obtain ⟨segs', n, l, G, D, a, b, c, d, f⟩ := ih (k := 0) (g := [(s.current, seg)]) hs1 ht1 h2
          ⟨by
            simp only [map_add, List.map_nil, List.nil_append]
            exact .cons ⟨next, hi⟩ .nil, by
            intro a ha
            cases ha
            exact within_refl (by simp) _⟩ (by simp)
        refine ⟨seg :: segs', n, (s.current, seg) :: l, g :: G, (s.start, s.curves) :: D, .keep _ a, .draw hd hend b,
          ?_, ?_, ?_⟩
        · rw [c]
          simp only
          rw [flush h3]
          simp
        · simp [d]
        · exact .cons (hg.mono (by omega)) (imp (by omega) f)
      · obtain ⟨segs', n, l, G, D, a, b, c, d, f⟩ := ih (k := k) (g := g ++ [(s.current, seg)]) hs1 ht1 h2
          ⟨by
            simp only [map_add]
            exact List.rel_append hg.1 (.cons ⟨next, hi⟩ .nil), by
            intro a ha
            cases g with
            | nil =>
              cases ha
              exact h0 rfl
            | cons x g => exact hg.2 a ha⟩ (by simp)
        exact ⟨seg :: segs', n, (s.current, seg) :: l, G, D, .keep _ a, .draw hd hend b, c, by simp [d], f⟩

/-! ### Corners -/

/-- The comparison of directions in `draw_curves`. -/
theorem turns_cases {fl : ℝ → ℝ} (R : FloatRounding fl) {a b : Curve} (h : HasDirs a b) :
    (fl (fl ((b.value 0).2.x * (a.value a.length).2.x) + fl ((b.value 0).2.y * (a.value a.length).2.y)) < fl minCosConnect →
      cosBetween a b < 99619 / 100000 + 1 / 10 ^ 12) ∧
    (¬ fl (fl ((b.value 0).2.x * (a.value a.length).2.x) + fl ((b.value 0).2.y * (a.value a.length).2.y)) < fl minCosConnect →
      99619 / 100000 - 1 / 10 ^ 12 < cosBetween a b) := by
  obtain ⟨x1, x2⟩ := h .x
  obtain ⟨y1, y2⟩ := h .y
  unfold cosBetween
  simp only [coord] at x1 x2 y1 y2
  generalize (a.value a.length).2.x = p at *
  generalize (a.value a.length).2.y = q at *
  generalize (b.value 0).2.x = r at *
  generalize (b.value 0).2.y = w at *
  have m : ∀ {x y : ℝ}, |x| ≤ 2 → |y| ≤ 2 → |x * y| ≤ 4 := by
    intro x y hx hy
    rw [abs_mul]
    calc |x| * |y| ≤ 2 * 2 := mul_le_mul hx hy (abs_nonneg _) (by norm_num)
      _ = 4 := by norm_num
  have m1 := m x2 x1
  have m2 := m y2 y1
  have e1 := abs_le.1 (R.rel m1 (by norm_num))
  have e2 := abs_le.1 (R.rel m2 (by norm_num))
  have m1 := abs_le.1 m1
  have m2 := abs_le.1 m2
  have e3 := abs_le.1 (R.rel (x := fl (r * p) + fl (w * q)) (M := 10) (by
    rw [abs_le]; norm_num at *; constructor <;> linarith) (by norm_num))
  have e4 := abs_le.1 (R.rel (x := minCosConnect) (M := 1) (by unfold minCosConnect; norm_num) (by norm_num))
  rw [mul_comm p r, mul_comm q w]
  unfold minCosConnect at *
  constructor
  · intro h
    norm_num at *
    linarith
  · intro h
    norm_num at *
    linarith

/-- No corner inside. -/
def Smooth (l : Concat) : Prop :=
  List.IsChain (fun a b => HasDirs a.curve b.curve → 99619 / 100000 - 1 / 10 ^ 12 < cosBetween a.curve b.curve) l

theorem getLast_add (fl : ℝ → ℝ) (c : Concat) (k : Curve) :
    ∃ part, (concatAdd fl c k).getLast? = some part ∧ part.curve = k := by
  simp [concatAdd]

theorem add_split (fl : ℝ → ℝ) (c : Concat) (k : Curve) : ∃ part, concatAdd fl c k = c ++ [part] ∧ part.curve = k :=
  ⟨_, rfl, rfl⟩

theorem step_remembers {fl : ℝ → ℝ} {e : Env} {v : ℝ} {seg : Seg} {s s' : Pen} (h : step fl e v s seg = some s')
    (hr : Remembers s) : Remembers s' := by
  rcases step_eq h with ⟨p, -, h⟩ | ⟨p, -, rfl⟩ | ⟨info, next, -, h⟩
  · rcases goTo_eq h with ⟨-, rfl⟩ | ⟨-, s2, h3, rfl⟩
    · exact hr
    · obtain ⟨err, -, h4⟩ := flush_eq h3
      have : s2.curves = [] := by rw [h4]
      intro part hp
      simp [this] at hp
  · exact hr
  · rcases add_eq h with ⟨-, s2, h3, rfl⟩ | ⟨-, rfl⟩
    · obtain ⟨part, h5, h6⟩ := getLast_add fl [] info
      intro part' hp
      simp only at hp
      rw [h5] at hp
      cases hp
      rw [h6]
    · obtain ⟨part, h5, h6⟩ := getLast_add fl s.curves info
      intro part' hp
      simp only at hp
      rw [h5] at hp
      cases hp
      rw [h6]

theorem finish_smooth {fl : ℝ → ℝ} (R : FloatRounding fl) {e : Env} {v : ℝ} {segs : List Seg} {s s' : Pen}
    (h : finish fl e v segs s = some s')
    (hr : Remembers s) (h0 : Smooth s.curves) (hd : ∀ st ∈ s.drawn, Smooth st.2) :
    ∀ st ∈ s'.drawn, Smooth st.2 := by
  have flush : ∀ {s s1 : Pen}, flush fl e v s = some s1 → Smooth s.curves →
      (∀ st ∈ s.drawn, Smooth st.2) → ∀ st ∈ s1.drawn, Smooth st.2 := by
    intro s s1 h h0 hd st hst
    obtain ⟨err, -, h2⟩ := flush_eq h
    rw [h2] at hst
    simp only [List.mem_append, List.mem_singleton] at hst
    rcases hst with hst | rfl
    · exact hd st hst
    · exact h0
  induction segs generalizing s with
  | nil => exact flush h h0 hd
  | cons seg segs ih =>
    obtain ⟨s1, h1, h2⟩ := finish_cons.1 h
    refine ih h2 (step_remembers h1 hr) ?_ ?_
    · rcases step_eq h1 with ⟨p, -, h⟩ | ⟨p, -, rfl⟩ | ⟨info, next, -, h⟩
      · rcases goTo_eq h with ⟨-, rfl⟩ | ⟨-, s2, h3, rfl⟩
        · exact h0
        · obtain ⟨err, -, h4⟩ := flush_eq h3
          have : s2.curves = [] := by rw [h4]
          simp [this, Smooth]
      · exact h0
      · rcases add_eq h with ⟨-, s2, h3, rfl⟩ | ⟨ht, rfl⟩
        · simp [Smooth, concatAdd]
        · obtain ⟨part, h5, h6⟩ := add_split fl s.curves info
          simp only [h5]
          refine List.IsChain.append h0 (List.isChain_singleton _) ?_
          intro x hx y hy
          simp only [List.head?_cons, Option.mem_def, Option.some.injEq] at hy
          subst hy
          rw [h6]
          intro hdir
          exact (turns_cases R hdir).2 (fun hlt => ht ⟨_, hr x hx, hlt⟩)
    · rcases step_flush h1 with ⟨-, -, h3⟩ | ⟨s2, h4, -, -, h3⟩
      · rw [h3]; exact hd
      · rw [h3]; exact flush h4 h0 hd

/-- A corner between two strokes. -/
def CornerBetween (a b : Vec × Concat) : Prop :=
  ∃ x ∈ a.2.getLast?, ∃ y ∈ b.2.head?, HasDirs x.curve y.curve → cosBetween x.curve y.curve < 99619 / 100000 + 1 / 10 ^ 12

/-- Without moves, strokes only end at corners. -/
theorem finish_corners {fl : ℝ → ℝ} (R : FloatRounding fl) {e : Env} {v : ℝ} {segs : List Seg} {s s' : Pen}
    (h : finish fl e v segs s = some s')
    (hg : ∀ p, Seg.goTo p ∉ segs) (hr : Remembers s)
    (h0 : s.curves = [] → s.drawn = [] ∧ s.prevDir = none)
    (hc : List.IsChain CornerBetween (s.drawn ++ [(s.start, s.curves)])) :
    List.IsChain CornerBetween s'.drawn := by
  induction segs generalizing s with
  | nil =>
    rw [finish_nil] at h
    obtain ⟨err, -, h2⟩ := flush_eq h
    rw [h2]
    exact hc
  | cons seg segs ih =>
    obtain ⟨s1, h1, h2⟩ := finish_cons.1 h
    have hg' : ∀ p, Seg.goTo p ∉ segs := fun p hp => hg p (List.mem_cons_of_mem _ hp)
    have hr1 := step_remembers h1 hr
    rcases step_eq h1 with ⟨p, rfl, -⟩ | ⟨p, -, rfl⟩ | ⟨info, next, -, h⟩
    · exact absurd List.mem_cons_self (hg p)
    · exact ih h2 hg' hr1 h0 hc
    · rcases add_eq h with ⟨ht, s2, h3, rfl⟩ | ⟨ht, rfl⟩
      · obtain ⟨part, h5, h6⟩ := add_split fl [] info
        obtain ⟨err, -, h4⟩ := flush_eq h3
        have e1 : s2.drawn = s.drawn ++ [(s.start, s.curves)] := by rw [h4]
        obtain ⟨d, hd1, hd2⟩ := ht
        have hne : s.curves ≠ [] := by
          intro hc
          rw [(h0 hc).2] at hd1
          cases hd1
        refine ih h2 hg' hr1 (fun hc => ?_) ?_
        · simp [h5] at hc
        · simp only [e1, h5, List.nil_append]
          refine List.IsChain.append hc (List.isChain_singleton _) ?_
          intro x hx y hy
          simp only [List.getLast?_append, List.getLast?_singleton, Option.some_or, Option.mem_def,
            Option.some.injEq] at hx
          simp only [List.head?_cons, Option.mem_def, Option.some.injEq] at hy
          subst hx hy
          obtain ⟨l, hl⟩ := Option.ne_none_iff_exists'.1 (fun hc => hne (List.getLast?_eq_none_iff.1 hc))
          refine ⟨l, hl, part, rfl, fun hdir => (turns_cases R hdir).1 ?_⟩
          have := hr l hl
          rw [hd1, Option.some.injEq] at this
          rw [h6]
          subst this
          exact hd2
      · obtain ⟨part, h5, h6⟩ := add_split fl s.curves info
        refine ih h2 hg' hr1 (fun hc => ?_) ?_
        · simp [h5] at hc
        · simp only [h5]
          by_cases hne : s.curves = []
          · rw [(h0 hne).1]
            exact List.isChain_singleton _
          · have hh := List.isChain_append.1 hc
            refine List.IsChain.append hh.1 (List.isChain_singleton _) ?_
            intro x hx y hy
            simp only [List.head?_cons, Option.mem_def, Option.some.injEq] at hy
            subst hy
            obtain ⟨a, ha, b, hb, hcor⟩ := hh.2.2 x hx (s.start, s.curves) rfl
            refine ⟨a, ha, b, ?_, hcor⟩
            simp only
            rw [List.head?_append_of_ne_nil _ hne]
            exact hb

/-- Curves put together with `ConcatCurve::add`. -/
noncomputable def glue (fl : ℝ → ℝ) (cs : List Curve) : Concat := cs.foldl (concatAdd fl) []

/-- Collected curves are put together with `ConcatCurve::add`. -/
theorem finish_glue {fl : ℝ → ℝ} {e : Env} {v : ℝ} {segs : List Seg} {s s' : Pen} (h : finish fl e v segs s = some s')
    (h0 : s.curves = glue fl (s.curves.map Part.curve))
    (hd : ∀ st ∈ s.drawn, st.2 = glue fl (st.2.map Part.curve)) :
    ∀ st ∈ s'.drawn, st.2 = glue fl (st.2.map Part.curve) := by
  have flush : ∀ {s s1 : Pen}, flush fl e v s = some s1 → s.curves = glue fl (s.curves.map Part.curve) →
      (∀ st ∈ s.drawn, st.2 = glue fl (st.2.map Part.curve)) →
      ∀ st ∈ s1.drawn, st.2 = glue fl (st.2.map Part.curve) := by
    intro s s1 h h0 hd st hst
    obtain ⟨err, -, h2⟩ := flush_eq h
    rw [h2] at hst
    simp only [List.mem_append, List.mem_singleton] at hst
    rcases hst with hst | rfl
    · exact hd st hst
    · exact h0
  have addg : ∀ (c : Concat) (k : Curve), c = glue fl (c.map Part.curve) →
      concatAdd fl c k = glue fl ((concatAdd fl c k).map Part.curve) := by
    intro c k hc
    rw [map_add]
    unfold glue at *
    rw [List.foldl_append, ← hc]
    rfl
  induction segs generalizing s with
  | nil => exact flush h h0 hd
  | cons seg segs ih =>
    obtain ⟨s1, h1, h2⟩ := finish_cons.1 h
    refine ih h2 ?_ ?_
    · rcases step_eq h1 with ⟨p, -, h⟩ | ⟨p, -, rfl⟩ | ⟨info, next, -, h⟩
      · rcases goTo_eq h with ⟨-, rfl⟩ | ⟨-, s2, h3, rfl⟩
        · exact h0
        · obtain ⟨err, -, h4⟩ := flush_eq h3
          have : s2.curves = [] := by rw [h4]
          simp [this, glue]
      · exact h0
      · rcases add_eq h with ⟨-, s2, h3, rfl⟩ | ⟨-, rfl⟩
        · exact addg [] info rfl
        · exact addg _ info h0
    · rcases step_flush h1 with ⟨-, -, h3⟩ | ⟨s2, h4, -, -, h3⟩
      · rw [h3]; exact hd
      · rw [h3]; exact flush h4 h0 hd

end StepperPaths.Rounded
