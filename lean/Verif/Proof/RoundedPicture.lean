import Verif.Proof.RoundedPathLines
import Verif.Props.Picture

/-! The lines and curves of a document, with rounding. -/

namespace StepperPaths.Rounded.Acc
open Spec Coords Draw StepperPaths.Svg Context Spec.Svg

variable {fl : ℝ → ℝ} {lib : Lib}

/-- The points are close. -/
def Apart (E : Axis → ℝ) (p' p : Vec) : Prop := ∀ i, |coord p' i - coord p i| ≤ E i

/-- The segments are of the same kind and close. -/
inductive SegClose (E : Axis → ℝ) (η : ℝ) : Seg → Seg → Prop
  | goTo {p' p : Vec} : Apart E p' p → SegClose E η (.goTo p') (.goTo p)
  | lineTo {p' p : Vec} : Apart E p' p → SegClose E η (.lineTo p') (.lineTo p)
  | closeTo {p' p : Vec} : Apart E p' p → SegClose E η (.closeTo p') (.closeTo p)
  | curveTo {p' p c' c d' d : Vec} : Apart E p' p → Apart (fun i => 2 * E i) c' c → Apart (fun i => 2 * E i) d' d →
      SegClose E η (.curveTo p' c' d') (.curveTo p c d)
  | arc {a' b' c' d' e' a b c d e : ℝ} : ArcsNear η (.arc a' b' c' d' e') (.arc a b c d e) →
      SegClose E η (.arc a' b' c' d' e') (.arc a b c d e)

theorem line_close {E : Axis → ℝ} {p' p q' q : Vec} (hp : Apart E p' p) (hq : Apart E q' q) :
    CloseLines (fun i => 3 * E i) (fun u => p' * (1 - u) + q' * u) (fun u => p * (1 - u) + q * u) := by
  intro u h0 h1 i
  have e1 := hp i
  have e2 := hq i
  have hE : 0 ≤ E i := (abs_nonneg _).trans e1
  have key : coord (p' * (1 - u) + q' * u) i - coord (p * (1 - u) + q * u) i =
      (coord p' i - coord p i) * (1 - u) + (coord q' i - coord q i) * u := by
    cases i
    · change p'.x * (1 - u) + q'.x * u - (p.x * (1 - u) + q.x * u) = (p'.x - p.x) * (1 - u) + (q'.x - q.x) * u
      ring
    · change p'.y * (1 - u) + q'.y * u - (p.y * (1 - u) + q.y * u) = (p'.y - p.y) * (1 - u) + (q'.y - q.y) * u
      ring
  rw [key]
  refine (abs_add_le _ _).trans ?_
  rw [abs_mul, abs_mul, abs_of_nonneg h0, abs_of_nonneg (by linarith : (0 : ℝ) ≤ 1 - u)]
  have := mul_le_mul_of_nonneg_right e1 (by linarith : (0 : ℝ) ≤ 1 - u)
  have := mul_le_mul_of_nonneg_right e2 h0
  linarith

theorem curve_close {E : Axis → ℝ} {p' p q' q c' c d' d : Vec} (hp : Apart E p' p) (hq : Apart E q' q)
    (hc : Apart (fun i => 2 * E i) c' c) (hd : Apart (fun i => 2 * E i) d' d) :
    CloseLines (fun i => 3 * E i) (pointAt p' (.curveTo q' c' d')) (pointAt p (.curveTo q c d)) := by
  intro u h0 h1 i
  have e1 := hp i
  have e2 := hq i
  have e3 := hc i
  have e4 := hd i
  have hE : 0 ≤ E i := (abs_nonneg _).trans e1
  have hu : (0 : ℝ) ≤ 1 - u := by linarith
  have b0 : 0 ≤ (1 - u) ^ 3 + 3 * (1 - u) ^ 2 * u := by positivity
  have b1 : 0 ≤ 3 * (1 - u) * u ^ 2 + u ^ 3 := by positivity
  have b2 : 0 ≤ 3 * (1 - u) ^ 2 * u := by positivity
  have b3 : 0 ≤ 3 * (1 - u) * u ^ 2 := by positivity
  have key : coord (pointAt p' (.curveTo q' c' d') u) i - coord (pointAt p (.curveTo q c d) u) i =
      (coord p' i - coord p i) * ((1 - u) ^ 3 + 3 * (1 - u) ^ 2 * u) + (coord q' i - coord q i) * (3 * (1 - u) * u ^ 2 + u ^ 3) +
      ((coord c' i - coord c i) * (3 * (1 - u) ^ 2 * u) + (coord d' i - coord d i) * (3 * (1 - u) * u ^ 2)) := by
    cases i
    · change p'.x * (1 - u) ^ 3 + (p'.x + c'.x) * (3 * (1 - u) ^ 2 * u) + (q'.x + d'.x) * (3 * (1 - u) * u ^ 2) + q'.x * u ^ 3 -
        (p.x * (1 - u) ^ 3 + (p.x + c.x) * (3 * (1 - u) ^ 2 * u) + (q.x + d.x) * (3 * (1 - u) * u ^ 2) + q.x * u ^ 3) =
        (p'.x - p.x) * ((1 - u) ^ 3 + 3 * (1 - u) ^ 2 * u) + (q'.x - q.x) * (3 * (1 - u) * u ^ 2 + u ^ 3) +
        ((c'.x - c.x) * (3 * (1 - u) ^ 2 * u) + (d'.x - d.x) * (3 * (1 - u) * u ^ 2))
      ring
    · change p'.y * (1 - u) ^ 3 + (p'.y + c'.y) * (3 * (1 - u) ^ 2 * u) + (q'.y + d'.y) * (3 * (1 - u) * u ^ 2) + q'.y * u ^ 3 -
        (p.y * (1 - u) ^ 3 + (p.y + c.y) * (3 * (1 - u) ^ 2 * u) + (q.y + d.y) * (3 * (1 - u) * u ^ 2) + q.y * u ^ 3) =
        (p'.y - p.y) * ((1 - u) ^ 3 + 3 * (1 - u) ^ 2 * u) + (q'.y - q.y) * (3 * (1 - u) * u ^ 2 + u ^ 3) +
        ((c'.y - c.y) * (3 * (1 - u) ^ 2 * u) + (d'.y - d.y) * (3 * (1 - u) * u ^ 2))
      ring
  rw [key]
  refine (abs_add_le _ _).trans ((add_le_add (abs_add_le _ _) (abs_add_le _ _)).trans ?_)
  have am : ∀ {a b : ℝ}, 0 ≤ b → |a * b| = |a| * b := fun h => by rw [abs_mul, abs_of_nonneg h]
  rw [am b0, am b1, am b2, am b3]
  simp only at e3 e4
  have f1 := mul_le_mul_of_nonneg_right e1 b0
  have f2 := mul_le_mul_of_nonneg_right e2 b1
  have f3 := mul_le_mul_of_nonneg_right e3 b2
  have f4 := mul_le_mul_of_nonneg_right e4 b3
  have hB : 3 * (1 - u) ^ 2 * u + 3 * (1 - u) * u ^ 2 ≤ 1 := by nlinarith [sq_nonneg (u - 1 / 2)]
  have f5 := mul_le_mul_of_nonneg_left hB hE
  have hsum : (1 - u) ^ 3 + 3 * (1 - u) ^ 2 * u + (3 * (1 - u) * u ^ 2 + u ^ 3) = 1 := by ring
  have f6 : E i * ((1 - u) ^ 3 + 3 * (1 - u) ^ 2 * u) + E i * (3 * (1 - u) * u ^ 2 + u ^ 3) = E i := by
    rw [← mul_add, hsum, mul_one]
  linarith

theorem Apart.mono {E F : Axis → ℝ} {p' p : Vec} (h : Apart E p' p) (hE : ∀ i, E i ≤ F i) : Apart F p' p :=
  fun i => (h i).trans (hE i)

theorem arc_close {E : Axis → ℝ} {η : ℝ} {p' p : Vec} {a' b' c' d' e' a b c d e : ℝ} (hp : Apart E p' p)
    (h : ArcsNear η (.arc a' b' c' d' e') (.arc a b c d e)) :
    CloseLines (fun i => E i + η) (pointAt p' (.arc a' b' c' d' e')) (pointAt p (.arc a b c d e)) := by
  intro u h0 h1 i
  have e1 := hp i
  have e2 := h u h0 h1 i
  refine le_trans ?_ (add_le_add e1 e2)
  refine le_trans (le_of_eq ?_) (abs_add_le _ _)
  congr 1
  cases i
  · simp only [coord, pointAt]; ring
  · simp only [coord, pointAt]; ring

/-- An arc begins where the one before ends: their errors add up. -/
theorem lines_close {E : Axis → ℝ} {η : ℝ} (hη : 0 ≤ η) {a' a : List Seg} (h : List.Forall₂ (SegClose E η) a' a) : ∀ {j : ℕ} {p' p : Vec},
    Apart (fun i => E i + j * η) p' p →
    List.Forall₂ (CloseLines fun i => 3 * (E i + (j + a.length : ℕ) * η)) (linesOf p' a') (linesOf p a) := by
  have up : ∀ {j m : ℕ} {p' p : Vec}, j ≤ m → Apart (fun i => E i + j * η) p' p → Apart (fun i => E i + m * η) p' p := by
    intro j m p' p hm h
    refine h.mono fun i => ?_
    have : (j : ℝ) * η ≤ m * η := mul_le_mul_of_nonneg_right (by exact_mod_cast hm) hη
    linarith
  have zero : ∀ {m : ℕ} {p' p : Vec}, Apart E p' p → Apart (fun i => E i + m * η) p' p :=
    fun h => up (Nat.zero_le _) (h.mono fun i => by simp)
  induction h with
  | nil => exact fun _ => .nil
  | @cons x' x b' b hs _ ih =>
    intro j p' p hp
    have more : ∀ {q' q : Vec}, Apart (fun i => E i + (j + 1 : ℕ) * η) q' q →
        List.Forall₂ (CloseLines fun i => 3 * (E i + (j + (x :: b).length : ℕ) * η)) (linesOf q' b') (linesOf q b) := by
      intro q' q h
      have := ih h
      rwa [show j + 1 + b.length = j + (x :: b).length by simp; omega] at this
    have here : Apart (fun i => E i + (j + (x :: b).length : ℕ) * η) p' p := up (by omega) hp
    cases hs with
    | goTo h => exact more (zero h)
    | lineTo h => exact .cons (line_close here (zero h)) (more (zero h))
    | closeTo h => exact .cons (line_close here (zero h)) (more (zero h))
    | curveTo h hc hd =>
      have two : ∀ {c' c : Vec}, Apart (fun i => 2 * E i) c' c → Apart (fun i => 2 * (E i + (j + (b.length + 1) : ℕ) * η)) c' c :=
        fun h => h.mono fun i => by
          have : 0 ≤ ((j + (b.length + 1) : ℕ) : ℝ) * η := by positivity
          linarith
      exact .cons (curve_close here (zero h) (two hc) (two hd)) (more (zero h))
    | @arc a' b1' c' d' e' a b1 c d e h =>
      have h1 := arc_close hp h
      have next : Apart (fun i => E i + (j + 1 : ℕ) * η) (segEnd p' (.arc a' b1' c' d' e')) (segEnd p (.arc a b1 c d e)) := by
        intro i
        have := h1 1 zero_le_one le_rfl i
        rw [Picture.point_one, Picture.point_one] at this
        refine this.trans (le_of_eq ?_)
        push_cast
        ring
      refine .cons (fun u u0 u1 i => (h1 u u0 u1 i).trans ?_) (more next)
      have hE : 0 ≤ E i + j * η := (abs_nonneg _).trans (hp i)
      have : (((j + 1 : ℕ) : ℝ)) * η ≤ (j + ((.arc a b1 c d e : Seg) :: b).length : ℕ) * η :=
        mul_le_mul_of_nonneg_right (by exact_mod_cast (by simp)) hη
      push_cast at this ⊢
      linarith

theorem seg_close {k n : ℕ} {R : Vec} {η : ℝ} {E : Axis → ℝ} (hx : g k * R.x ≤ E .x) (hy : g k * R.y ≤ E .y) {x' x : Seg} (h : SegApp k n R η x' x) :
    SegClose E η x' x := by
  have one : ∀ {p' p : Vec}, VApp k n p' p R → Apart E p' p := by
    intro p' p h i
    cases i
    · exact h.x.err.trans hx
    · exact h.y.err.trans hy
  have two : ∀ {p' p : Vec}, VApp k n p' p ⟨2 * R.x, 2 * R.y⟩ → Apart (fun i => 2 * E i) p' p := by
    intro p' p h i
    cases i
    · have : |p'.x - p.x| ≤ g k * (2 * R.x) := h.x.err
      change |p'.x - p.x| ≤ 2 * E .x
      linarith
    · have : |p'.y - p.y| ≤ g k * (2 * R.y) := h.y.err
      change |p'.y - p.y| ≤ 2 * E .y
      linarith
  cases h with
  | goTo h => exact .goTo (one h)
  | lineTo h => exact .lineTo (one h)
  | closeTo h => exact .closeTo (one h)
  | curveTo h hc hd => exact .curveTo (one h) (two hc) (two hd)
  | arc h => exact .arc h

/-- What is needed for a path: no arcs, or good ones. -/
structure PathOk (fl : ℝ → ℝ) (lib : Lib) (η : ℝ) (G : Seg → Prop) (δ : Axis → ℝ) (d : Drawing) (s : Size) (t' : Transform) : Prop where
  nested : s.count ≤ 30
  long : numbers d.cmds ≤ 2 ^ 50
  pos : 0 ≤ η
  arcs : ∀ c ∈ d.cmds, c.letter = 'a' ∨ c.letter = 'A' →
    ArcStep fl lib (12 * s.count) (32 * s.count) (1 + numbers d.cmds) (extent d.cmds) η t' d.tr s.bound G c.args.values
  exact : ∀ s1, buildAll d.tr true d.values .new = some (.ok (), s1) →
    (∀ seg ∈ s1.segs, G seg) ∧ ∀ i, s.error d.cmds i + 3 * (s1.segs.length * η) ≤ δ i

/-- One path. -/
theorem one_near (hf : FloatRounding fl) {d : Drawing} (hv : d.Valid) {s : Size} {δ : Axis → ℝ} {t' : Transform} {η : ℝ} {G : Seg → Prop}
    (hr : PathOk fl lib η G δ d s t') (hn : Near t' d.tr s) (s' : PathState) :
    ∃ s1' p0' rest', parsePathF fl lib d.text t' s' = some (.done (.ok ()) s1') ∧ s1'.segs = s'.segs ++ .goTo p0' :: rest' ∧
      List.Forall₂ (CloseLines δ) (linesOf p0' rest') (moved d.tr d.lines) := by
  have arcs : (∃ c ∈ d.values, c.1 = 'a' ∨ c.1 = 'A') → Turns d.tr := by
    rintro ⟨c, hc, hc'⟩
    obtain ⟨c0, h0, rfl⟩ := List.mem_map.1 hc
    exact hv.arcs ⟨c0, h0, hc'⟩
  obtain ⟨s1, a, g1, g2, g3, g4⟩ := Picture.figure_build hv.means d.tr arcs .new rfl rfl
  obtain ⟨p0, rest, rfl⟩ := g4 (by
    obtain ⟨c, hc, hc'⟩ := hv.first
    refine ⟨(c.letter, c.args.values.map fun q : ℚ => (q : ℝ)), ?_, hc'⟩
    unfold Drawing.values
    rw [List.head?_map]
    exact Option.mem_map_of_mem _ hc)
  obtain ⟨hG, hδ⟩ := hr.exact s1 g1
  have hnest := hr.nested
  have hlong := hr.long
  have S : Setting fl (12 * s.count) (32 * s.count) (1 + numbers d.cmds) (extent d.cmds) t' d.tr s.bound :=
    ⟨hf, hn, by omega⟩
  obtain ⟨s1', b1, a', a2, b2, b3, b4⟩ := all_near (lib := lib) S d.cmds true (j := 1) (P := 0) (s' := s') hr.arcs hG
    (fun h => absurd ⟨rfl, hv.first⟩ h) le_rfl le_rfl le_rfl (by rw [zero_add]) g1
  have e2 : a2 = .goTo p0 :: rest := by
    rw [g2] at b3
    simpa [PathState.new] using b3.symm
  subst e2
  obtain ⟨x', rest', hx, hrest, rfl⟩ : ∃ x' rest', SegApp (12 * s.count + (1 + numbers d.cmds) + 9) (32 * s.count + 11)
      (s.bound * (⟨extent d.cmds, extent d.cmds⟩ : Vec)) η x' (.goTo p0) ∧ List.Forall₂ (SegApp (12 * s.count + (1 + numbers d.cmds) + 9) (32 * s.count + 11)
      (s.bound * (⟨extent d.cmds, extent d.cmds⟩ : Vec)) η) rest' rest ∧ a' = x' :: rest' := by
    cases b4 with
    | cons h1 h2 => exact ⟨_, _, h1, h2, rfl⟩
  have hk : ((12 * s.count + (1 + numbers d.cmds) + 9 : ℕ) : ℝ) ≤ 2 ^ 52 := by
    have : 12 * s.count + (1 + numbers d.cmds) + 9 ≤ 2 ^ 52 := by omega
    exact_mod_cast this
  have hT : 0 ≤ extent d.cmds := total_nonneg _
  obtain ⟨r0, r1⟩ := S.reach_nonneg hT
  have hg := g_le hk
  have err : ∀ i, 3 * (g (12 * s.count + (1 + numbers d.cmds) + 9) * s.reach d.cmds i + (0 + rest.length : ℕ) * η) ≤ δ i := by
    intro i
    refine le_trans ?_ (hδ i)
    have hlen : (rest.length : ℝ) * η ≤ s1.segs.length * η := by
      refine mul_le_mul_of_nonneg_right ?_ hr.pos
      rw [g2]
      exact_mod_cast (by simp [PathState.new])
    rw [mul_add, zero_add]
    refine add_le_add ?_ (by linarith)
    have hreach : 0 ≤ s.reach d.cmds i := by
      cases i
      · exact r0
      · exact r1
    have := mul_le_mul_of_nonneg_right hg hreach
    unfold Size.error
    push_cast at this
    calc _ ≤ 3 * (2 * (12 * s.count + (1 + numbers d.cmds) + 9) / 2 ^ 52 * s.reach d.cmds i) := by linarith
      _ = _ := by ring
  have close : ∀ {x' x : Seg}, SegApp (12 * s.count + (1 + numbers d.cmds) + 9) (32 * s.count + 11)
      (s.bound * (⟨extent d.cmds, extent d.cmds⟩ : Vec)) η x' x →
      SegClose (fun i => g (12 * s.count + (1 + numbers d.cmds) + 9) * s.reach d.cmds i) η x' x :=
    fun h => seg_close le_rfl le_rfl h
  cases hx' : close hx with
  | @goTo p0' _ hp =>
    refine ⟨s1', p0', rest', ?_, b2, ?_⟩
    · exact pathLoopF_cmds t' d.cmds hv.cmds hv.trail true s' s1' b1
    · rw [← g3]
      have := lines_close hr.pos (hrest.imp fun _ _ h => close h) (j := 0) (hp.mono fun i => by simp)
      refine this.imp fun γ' γ h u h0 h1 i => (h u h0 h1 i).trans (err i)

theorem forall₂_append {α β : Type*} {R : α → β → Prop} {a c : List α} {b d : List β} (h : List.Forall₂ R a b) (h' : List.Forall₂ R c d) :
    List.Forall₂ R (a ++ c) (b ++ d) := List.rel_append h h'

/-- Several paths. -/
theorem pictures_near (hf : FloatRounding fl) {δ : Axis → ℝ} {Even : Transform → Prop} {Good : Drawing → Size → Prop}
    (one : ∀ {d s t'}, d.Valid → Good d s → Even t' → Near t' d.tr s → ∃ η G, PathOk fl lib η G δ d s t') :
    ∀ (l : List Drawing) {z : List Size} {p' : List (Transform × List Char)},
    NearPaths p' (l.map fun d => (d.tr, d.text)) z → (∀ p ∈ p', Even p.1) → (∀ d ∈ l, d.Valid) → List.Forall₂ Good l z → ∀ s' : PathState,
    ∃ s1' a', runPathsF fl lib p' s' = some s1' ∧ s1'.segs = s'.segs ++ a' ∧
      (∀ q, List.Forall₂ (CloseLines δ) (linesOf q a') (picture l)) ∧ (l ≠ [] → ∃ p0 rest, a' = .goTo p0 :: rest)
  | [], z, p', h, _, _, _, s' => by
    cases h
    exact ⟨s', [], rfl, by simp, fun _ => .nil, fun h => absurd rfl h⟩
  | d :: l, z, p', h, he, hv, hr, s' => by
    cases hr with
    | @cons _ s _ z hr hrs =>
      rw [List.map_cons] at h
      cases h with
      | @cons t' _ _ _ p' _ _ hn h =>
        obtain ⟨η, G, hok⟩ := one (hv d (by simp)) hr (he (t', d.text) (by simp)) hn
        obtain ⟨s1', p0', rest', e1, e2, e3⟩ := one_near (lib := lib) hf (hv d (by simp)) hok hn s'
        obtain ⟨s2', a', e4, e5, e6, -⟩ := pictures_near hf one l h (fun p hp => he p (by simp [hp])) (fun d hd => hv d (by simp [hd])) hrs s1'
        refine ⟨s2', .goTo p0' :: (rest' ++ a'), ?_, ?_, ?_, fun _ => ⟨p0', rest' ++ a', rfl⟩⟩
        · simp only [runPathsF, e1]
          exact e4
        · rw [e5, e2]
          simp
        · intro q
          obtain ⟨q', hq⟩ := Props.linesOf_append rest' a' p0'
          show List.Forall₂ _ (linesOf p0' (rest' ++ a')) _
          rw [hq]
          exact forall₂_append e3 (e6 q')

/-- A path without arcs. -/
theorem Readable.ok {δ : Axis → ℝ} {d : Drawing} {s : Size} (h : Readable δ d s) (t' : Transform) : PathOk fl lib 0 (fun _ => True) δ d s t' :=
  ⟨h.nested, h.long, le_rfl, fun c hc ha => by
    have := h.arcs c hc
    rcases ha with ha | ha
    · exact absurd ha this.1
    · exact absurd ha this.2, fun s1 _ => ⟨fun _ _ => trivial, fun i => by simpa using h.error i⟩⟩

end StepperPaths.Rounded.Acc
