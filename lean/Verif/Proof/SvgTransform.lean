import Verif.Proof.SvgText
import Mathlib.Tactic.LinearCombination

/-! Lemmas about the parser of transform lists. -/

namespace StepperPaths.Svg
open StepperPaths.Svg.Parser Spec.Svg Draw Coords

theorem tag_iff (t i r : List Char) (u : Unit) : tag t i = some (r, u) ↔ i = t ++ r := by
  induction t generalizing i with
  | nil => simp [tag]
  | cons c t ih =>
    match i with
    | [] => simp [tag]
    | d :: i =>
      simp only [tag, List.cons_append, List.cons.injEq]
      split
      · rename_i h; simp [h, ih]
      · rename_i h; simp [h]

theorem tag_append (t r : List Char) : tag t (t ++ r) = some (r, ()) := (tag_iff _ _ _ _).2 rfl

theorem reads_tag (t : List Char) : Reads (tag t) fun w _ => w = t := by
  intro i r a h
  exact ⟨t, (tag_iff _ _ _ _).1 h, rfl⟩

theorem paren_noSpace (r : List Char) : NoHead isSpace ('(' :: r) := noHead_cons.2 (by decide)

theorem openFn_text (name : String) {gap lead r : List Char} (hg : Blank gap) (hl : Blank lead)
    (hr : NoHead isSpace r) :
    openFn name (name.toList ++ (gap ++ '(' :: (lead ++ r))) = some (r, ()) := by
  refine map_some.2 ⟨((), gap, '(', lead), pair_some.2 ⟨_, tag_append _ _, pair_some.2 ⟨'(' :: (lead ++ r),
    wspOpt_run hg (paren_noSpace _), pair_some.2 ⟨lead ++ r, ?_, wspOpt_run hl hr⟩⟩⟩, rfl⟩
  simp [char]

theorem openFn_none (name : String) {i : List Char} (h : tag name.toList i = none) :
    openFn name i = none := map_none (pair_none_left h)

theorem of_openFn (name : String) : Reads (openFn name) fun w _ =>
    ∃ gap lead, Blank gap ∧ Blank lead ∧ w = name.toList ++ gap ++ '(' :: lead := by
  refine (((reads_tag _).pair (of_wspOpt.pair ((reads_char '(').pair of_wspOpt))).map _).mono ?_
  rintro w a ⟨-, ⟨w1, w2, rfl, rfl, gap, w3, rfl, hg, w4, lead, rfl, rfl, hl⟩, -⟩
  exact ⟨gap, lead, hg, hl, by simp⟩

theorem closeFn_text {trail r : List Char} (h : Blank trail) :
    closeFn (trail ++ ')' :: r) = some (r, ()) := by
  refine map_some.2 ⟨(trail, ')'), pair_some.2 ⟨')' :: r, wspOpt_run h (noHead_cons.2 (by decide)), ?_⟩, rfl⟩
  simp [char]

theorem of_closeFn : Reads closeFn fun w _ => ∃ trail, Blank trail ∧ w = trail ++ [')'] := by
  refine ((of_wspOpt.pair (reads_char ')')).map _).mono ?_
  rintro w a ⟨-, ⟨w1, w2, rfl, h, rfl⟩, -⟩
  exact ⟨w1, h, rfl⟩

theorem close_listEnd {trail : List Char} (h : Blank trail) (r : List Char) :
    ListEnd (trail ++ ')' :: r) := by
  refine listEnd_of ?_ ?_
  · match trail with
    | [] => exact noHead_cons.2 (by decide)
    | c :: t =>
      refine noHead_cons.2 ?_
      rcases isSpace_iff.1 (blank_iff.1 h c (by simp)) with rfl | rfl | rfl | rfl <;> decide
  · rw [(takeWhile_run (blank_iff.1 h) (noHead_cons.2 (by decide))).2]
    exact noHead_cons.2 (by decide)

/-! ### One function -/

theorem call_eq (c : Call) (r : List Char) : c.text ++ r =
    c.name.toList ++ (c.gap ++ '(' :: (c.lead ++ (c.first.text ++ (c.rest.text ++ (c.trail ++ ')' :: r))))) := by
  simp [Call.text]

theorem fn_text {α : Type} {p : Parser α} {c : Call} (hc : c.Valid) {r : List Char} {a : α}
    (h : p (c.first.text ++ (c.rest.text ++ (c.trail ++ ')' :: r))) = some (c.trail ++ ')' :: r, a)) :
    delimited (openFn c.name) p closeFn (c.text ++ r) = some (r, a) := by
  rw [call_eq]
  refine preceded_some.2 ⟨_, (), openFn_text c.name hc.gap hc.lead ?_, terminated_some.2
    ⟨_, (), h, closeFn_text hc.trail⟩⟩
  obtain ⟨ch, t, ht, hs⟩ := numText_head hc.first
  rw [ht]
  exact noHead_cons.2 (numStart_facts hs).1

theorem fn_none {α : Type} {p : Parser α} {name : String} {i : List Char}
    (h : tag name.toList i = none) : delimited (openFn name) p closeFn i = none :=
  map_none (pair_none_left (openFn_none name h))

theorem of_fn {α : Type} (name : String) {p : Parser α} {G : List Char → α → Prop} (h : Reads p G) :
    Reads (delimited (openFn name) p closeFn) fun w a => ∃ gap lead trail w', Blank gap ∧ Blank lead ∧
      Blank trail ∧ G w' a ∧ w = name.toList ++ gap ++ '(' :: (lead ++ w' ++ trail ++ [')']) := by
  refine ((of_openFn name).preceded (h.terminated of_closeFn)).mono ?_
  rintro w a ⟨w1, w2, rfl, ⟨-, gap, lead, hg, hl, rfl⟩, w', w4, rfl, hG, -, trail, ht, rfl⟩
  exact ⟨gap, lead, trail, w', hg, hl, ht, hG, by simp⟩

/-- The first number of a call. -/
theorem first_text {c : Call} (hc : c.Valid) (r : List Char) :
    number (c.first.text ++ (c.rest.text ++ (c.trail ++ ')' :: r))) =
      some (c.rest.text ++ (c.trail ++ ')' :: r), c.first.value) :=
  number_text hc.first (NumList.stop hc.rest (close_listEnd hc.trail r).stop)

/-- The next number of a list. -/
theorem next_text {sep : List Char} {n : Num} {l : NumList} (hl : (NumList.cons sep n l).Valid)
    {e : List Char} (he : ListEnd e) :
    nextNumber ((NumList.cons sep n l).text ++ e) = some (l.text ++ e, n.value) := by
  have : (NumList.cons sep n l).text ++ e = sep ++ (n.text ++ (l.text ++ e)) := by simp [NumList.text]
  rw [this]
  exact nextNumber_text hl.1 hl.2.1 (NumList.stop hl.2.2 he.stop)

theorem values_nil {l : NumList} (h : l.values = []) : l = .nil := by
  cases l with
  | nil => rfl
  | cons => cases h

theorem values_cons {l : NumList} {a : ℚ} {as : List ℚ} (h : l.values = a :: as) :
    ∃ sep n l', l = .cons sep n l' ∧ n.value = a ∧ l'.values = as := by
  cases l with
  | nil => cases h
  | cons sep n l' =>
    simp only [NumList.values, List.cons.injEq] at h
    exact ⟨sep, n, l', rfl, h.1, h.2⟩

theorem mul_rotateAround (a : ℝ) (c p : Vec) : Transform.rotateAround a c * p =
    ⟨(turn a ⟨p.x - c.x, p.y - c.y⟩).x + c.x, (turn a ⟨p.x - c.x, p.y - c.y⟩).y + c.y⟩ := by
  change (⟨_, _⟩ : Vec) = _
  simp only [Transform.rotateAround, turn, Vec.mk.injEq]
  constructor <;> ring

theorem mul_rotate (a : ℝ) (p : Vec) : Transform.rotate a * p = turn a p := by
  change (⟨_, _⟩ : Vec) = _
  simp only [Transform.rotate, turn, Vec.mk.injEq]
  constructor <;> ring

theorem mul_def (t : Transform) (p : Vec) :
    t * p = ⟨t.m0 * p.x + t.m2 * p.y + t.m4, t.m1 * p.x + t.m3 * p.y + t.m5⟩ := rfl

attribute [local irreducible] Num.value in
/-- Every call is read completely, and what is returned does what the call means. -/
theorem transform_text (c : Call) (hc : c.Valid) (r : List Char) :
    ∃ t, transform (c.text ++ r) = some (r, t) ∧ ∀ p : Vec, t * p = c.apply p := by
  have hend := close_listEnd hc.trail r
  have hfirst := first_text hc r
  have hfn := fun (α : Type) (p : Parser α) (a : α) => fn_text (p := p) hc (r := r) (a := a)
  have hteq := call_eq c r
  have hk := hc.known
  have hrest := hc.rest
  obtain ⟨name, gap, lead, first, rest, trail⟩ := c
  simp only [Call.args, Call.apply] at *
  generalize hF : meaning name (first.value :: rest.values) = F at *
  obtain ⟨F, rfl⟩ := Option.ne_none_iff_exists'.1 hk
  unfold meaning at hF
  unfold transform
  split at hF
  · rename_i a b c d e f h
    simp only [List.cons.injEq] at h
    obtain ⟨h0, h⟩ := h
    obtain ⟨s1, n1, l1, rfl, rfl, h1⟩ := values_cons h
    obtain ⟨s2, n2, l2, rfl, rfl, h2⟩ := values_cons h1
    obtain ⟨s3, n3, l3, rfl, rfl, h3⟩ := values_cons h2
    obtain ⟨s4, n4, l4, rfl, rfl, h4⟩ := values_cons h3
    obtain ⟨s5, n5, l5, rfl, rfl, h5⟩ := values_cons h4
    cases values_nil h5
    injection hF with hF
    subst hF
    refine ⟨_, alt_left (hfn _ _ _ (map_some.2 ⟨(_, _, _, _, _, _), pair_some.2 ⟨_, hfirst, pair_some.2
      ⟨_, next_text hrest hend, pair_some.2 ⟨_, next_text hrest.2.2 hend, pair_some.2
      ⟨_, next_text hrest.2.2.2.2 hend, pair_some.2 ⟨_, next_text hrest.2.2.2.2.2.2 hend,
        next_text hrest.2.2.2.2.2.2.2.2 hend⟩⟩⟩⟩⟩, rfl⟩)), fun p => ?_⟩
    simp only [mul_def, Option.getD_some, ← h0]
  · rename_i x h
    simp only [List.cons.injEq] at h
    obtain ⟨h0, h⟩ := h
    cases values_nil h
    injection hF with hF
    subst hF
    have hm : matrix (Call.text ⟨"translate", gap, lead, first, .nil, trail⟩ ++ r) = none := by
      rw [hteq]; exact fn_none rfl
    rw [alt_right hm]
    refine ⟨_, alt_left (hfn _ _ _ (map_some.2 ⟨(_, _), pair_some.2 ⟨_, hfirst,
      opt_none' (hend.next)⟩, rfl⟩)), fun p => ?_⟩
    simp [mul_def, ← h0]
  · rename_i x y h
    simp only [List.cons.injEq] at h
    obtain ⟨h0, h⟩ := h
    obtain ⟨s1, n1, l1, rfl, rfl, h1⟩ := values_cons h
    cases values_nil h1
    injection hF with hF
    subst hF
    have hm : matrix (Call.text ⟨"translate", gap, lead, first, .cons s1 n1 .nil, trail⟩ ++ r) = none := by
      rw [hteq]; exact fn_none rfl
    rw [alt_right hm]
    refine ⟨_, alt_left (hfn _ _ _ (map_some.2 ⟨(_, _), pair_some.2 ⟨_, hfirst,
      opt_some' (next_text hrest hend)⟩, rfl⟩)), fun p => ?_⟩
    simp [mul_def, ← h0]
  · rename_i x h
    simp only [List.cons.injEq] at h
    obtain ⟨h0, h⟩ := h
    cases values_nil h
    injection hF with hF
    subst hF
    have hm : matrix (Call.text ⟨"scale", gap, lead, first, .nil, trail⟩ ++ r) = none := by
      rw [hteq]; exact fn_none rfl
    have ht : translate (Call.text ⟨"scale", gap, lead, first, .nil, trail⟩ ++ r) = none := by
      rw [hteq]; exact fn_none rfl
    rw [alt_right hm, alt_right ht]
    refine ⟨_, alt_left (hfn _ _ _ (map_some.2 ⟨(_, _), pair_some.2 ⟨_, hfirst,
      opt_none' (hend.next)⟩, rfl⟩)), fun p => ?_⟩
    simp [mul_def, ← h0]
  · rename_i x y h
    simp only [List.cons.injEq] at h
    obtain ⟨h0, h⟩ := h
    obtain ⟨s1, n1, l1, rfl, rfl, h1⟩ := values_cons h
    cases values_nil h1
    injection hF with hF
    subst hF
    have hm : matrix (Call.text ⟨"scale", gap, lead, first, .cons s1 n1 .nil, trail⟩ ++ r) = none := by
      rw [hteq]; exact fn_none rfl
    have ht : translate (Call.text ⟨"scale", gap, lead, first, .cons s1 n1 .nil, trail⟩ ++ r) = none := by
      rw [hteq]; exact fn_none rfl
    rw [alt_right hm, alt_right ht]
    refine ⟨_, alt_left (hfn _ _ _ (map_some.2 ⟨(_, _), pair_some.2 ⟨_, hfirst,
      opt_some' (next_text hrest hend)⟩, rfl⟩)), fun p => ?_⟩
    simp [mul_def, ← h0]
  · rename_i a h
    simp only [List.cons.injEq] at h
    obtain ⟨h0, h⟩ := h
    cases values_nil h
    injection hF with hF
    subst hF
    have hm : matrix (Call.text ⟨"rotate", gap, lead, first, .nil, trail⟩ ++ r) = none := by
      rw [hteq]; exact fn_none rfl
    have ht : translate (Call.text ⟨"rotate", gap, lead, first, .nil, trail⟩ ++ r) = none := by
      rw [hteq]; exact fn_none rfl
    have hs : scale (Call.text ⟨"rotate", gap, lead, first, .nil, trail⟩ ++ r) = none := by
      rw [hteq]; exact fn_none rfl
    rw [alt_right hm, alt_right ht, alt_right hs]
    refine ⟨_, alt_left (hfn _ _ _ (map_some.2 ⟨(_, _), pair_some.2 ⟨_, hfirst,
      opt_none' (pair_none_left (hend.next))⟩, rfl⟩)), fun p => ?_⟩
    simp [mul_rotate, radians, degrees, ← h0]
  · rename_i a x y h
    simp only [List.cons.injEq] at h
    obtain ⟨h0, h⟩ := h
    obtain ⟨s1, n1, l1, rfl, rfl, h1⟩ := values_cons h
    obtain ⟨s2, n2, l2, rfl, rfl, h2⟩ := values_cons h1
    cases values_nil h2
    injection hF with hF
    subst hF
    have hm : matrix (Call.text ⟨"rotate", gap, lead, first, .cons s1 n1 (.cons s2 n2 .nil), trail⟩ ++ r) =
        none := by rw [hteq]; exact fn_none rfl
    have ht : translate (Call.text ⟨"rotate", gap, lead, first, .cons s1 n1 (.cons s2 n2 .nil), trail⟩ ++ r) =
        none := by rw [hteq]; exact fn_none rfl
    have hs : scale (Call.text ⟨"rotate", gap, lead, first, .cons s1 n1 (.cons s2 n2 .nil), trail⟩ ++ r) =
        none := by rw [hteq]; exact fn_none rfl
    rw [alt_right hm, alt_right ht, alt_right hs]
    refine ⟨_, alt_left (hfn _ _ _ (map_some.2 ⟨(_, _), pair_some.2 ⟨_, hfirst,
      opt_some' (pair_some (v := (n1.value, n2.value)).2
        ⟨_, next_text hrest hend, next_text hrest.2.2 hend⟩)⟩, rfl⟩)), fun p => ?_⟩
    simp [mul_rotateAround, radians, degrees, ← h0]
  · rename_i a h
    simp only [List.cons.injEq] at h
    obtain ⟨h0, h⟩ := h
    cases values_nil h
    injection hF with hF
    subst hF
    have hm : matrix (Call.text ⟨"skewX", gap, lead, first, .nil, trail⟩ ++ r) = none := by
      rw [hteq]; exact fn_none rfl
    have ht : translate (Call.text ⟨"skewX", gap, lead, first, .nil, trail⟩ ++ r) = none := by
      rw [hteq]; exact fn_none rfl
    have hs : scale (Call.text ⟨"skewX", gap, lead, first, .nil, trail⟩ ++ r) = none := by
      rw [hteq]; exact fn_none rfl
    have hr : rotate (Call.text ⟨"skewX", gap, lead, first, .nil, trail⟩ ++ r) = none := by
      rw [hteq]; exact fn_none rfl
    rw [alt_right hm, alt_right ht, alt_right hs, alt_right hr]
    refine ⟨_, alt_left (hfn _ _ _ (map_some.2 ⟨_, hfirst, rfl⟩)), fun p => ?_⟩
    simp [mul_def, Transform.skewX, radians, degrees, ← h0]
  · rename_i a h
    simp only [List.cons.injEq] at h
    obtain ⟨h0, h⟩ := h
    cases values_nil h
    injection hF with hF
    subst hF
    have hm : matrix (Call.text ⟨"skewY", gap, lead, first, .nil, trail⟩ ++ r) = none := by
      rw [hteq]; exact fn_none rfl
    have ht : translate (Call.text ⟨"skewY", gap, lead, first, .nil, trail⟩ ++ r) = none := by
      rw [hteq]; exact fn_none rfl
    have hs : scale (Call.text ⟨"skewY", gap, lead, first, .nil, trail⟩ ++ r) = none := by
      rw [hteq]; exact fn_none rfl
    have hr : rotate (Call.text ⟨"skewY", gap, lead, first, .nil, trail⟩ ++ r) = none := by
      rw [hteq]; exact fn_none rfl
    have hx : skewX (Call.text ⟨"skewY", gap, lead, first, .nil, trail⟩ ++ r) = none := by
      rw [hteq]; exact fn_none rfl
    rw [alt_right hm, alt_right ht, alt_right hs, alt_right hr, alt_right hx]
    refine ⟨_, hfn _ _ _ (map_some.2 ⟨_, hfirst, rfl⟩), fun p => ?_⟩
    simp [mul_def, Transform.skewY, radians, degrees, ← h0]
    ring
  · cases hF

/-- What the parser accepts is a call, and the result does what it means. -/
theorem of_transform : Reads transform fun w t =>
    ∃ c : Call, c.Valid ∧ w = c.text ∧ ∀ p : Vec, t * p = c.apply p := by
  have hN := of_nextNumber
  have h1 := of_fn "matrix" ((of_number.pair (hN.pair (hN.pair (hN.pair (hN.pair hN))))).map
    fun (a, b, c, d, e, f) => (⟨a, b, c, d, e, f⟩ : Transform))
  have h2 := of_fn "translate" ((of_number.pair hN.opt).map
    fun (x, y) => (⟨1, 0, 0, 1, x, (y.getD 0 : ℚ)⟩ : Transform))
  have h3 := of_fn "scale" ((of_number.pair hN.opt).map
    fun (x, y) => (⟨x, 0, 0, (y.getD x : ℚ), 0, 0⟩ : Transform))
  have h4 := of_fn "rotate" ((of_number.pair (hN.pair hN).opt).map fun (a, c) =>
      match c with
      | some (cx, cy) => Transform.rotateAround (radians a) ⟨cx, cy⟩
      | none => Transform.rotate (radians a))
  have h5 := of_fn "skewX" (of_number.map fun a => Transform.skewX (radians a))
  have h6 := of_fn "skewY" (of_number.map fun a => Transform.skewY (radians a))
  have key : ∀ (w : List Char) (t : Transform), (∃ c : Call, Blank c.gap ∧ Blank c.lead ∧ c.first.Valid ∧
      c.rest.Valid ∧ Blank c.trail ∧ w = c.text ∧ ∃ F, meaning c.name c.args = some F ∧
        ∀ p : Vec, t * p = F p) →
      ∃ c : Call, c.Valid ∧ w = c.text ∧ ∀ p : Vec, t * p = c.apply p := by
    rintro w t ⟨c, h1, h2, h3, h4, h5, h6, F, hF, h7⟩
    exact ⟨c, ⟨h1, h2, h3, h4, h5, by simp [hF]⟩, h6, by simpa [Call.apply, hF] using h7⟩
  refine (h1.alt (h2.alt (h3.alt (h4.alt (h5.alt h6))))).mono ?_
  rintro w t (h | h | h | h | h | h) <;> apply key
  · obtain ⟨gap, lead, trail, w', hg, hl, ht, ⟨⟨a, b, c, d, e, f⟩, ⟨w1, w2, rfl, ⟨n0, v0, rfl, hn0⟩, w3, w4, rfl,
      ⟨s1, n1, hs1, hn1, rfl, e1⟩, w5, w6, rfl, ⟨s2, n2, hs2, hn2, rfl, e2⟩, w7, w8, rfl,
      ⟨s3, n3, hs3, hn3, rfl, e3⟩, w9, w10, rfl, ⟨s4, n4, hs4, hn4, rfl, e4⟩, ⟨s5, n5, hs5, hn5, rfl, e5⟩⟩,
      rfl⟩, rfl⟩ := h
    refine ⟨⟨"matrix", gap, lead, n0, .cons s1 n1 (.cons s2 n2 (.cons s3 n3 (.cons s4 n4 (.cons s5 n5 .nil)))),
      trail⟩, hg, hl, v0, ⟨hs1, hn1, hs2, hn2, hs3, hn3, hs4, hn4, hs5, hn5, trivial⟩, ht,
      by simp [Call.text, NumList.text], _, rfl, fun p => ?_⟩
    simp only at hn0 e1 e2 e3 e4 e5
    simp only [mul_def, hn0, e1, e2, e3, e4, e5]
  · obtain ⟨gap, lead, trail, w', hg, hl, ht, ⟨⟨x, y⟩, ⟨w1, w2, rfl, ⟨n0, v0, rfl, hn0⟩, h⟩, rfl⟩, rfl⟩ := h
    simp only at hn0 h
    rcases h with ⟨rfl, rfl⟩ | ⟨b, rfl, s1, n1, hs1, hn1, rfl, rfl⟩
    · refine ⟨⟨"translate", gap, lead, n0, .nil, trail⟩, hg, hl, v0, trivial, ht,
        by simp [Call.text, NumList.text], _, rfl, fun p => ?_⟩
      simp [mul_def, hn0]
    · refine ⟨⟨"translate", gap, lead, n0, .cons s1 n1 .nil, trail⟩, hg, hl, v0, ⟨hs1, hn1, trivial⟩, ht,
        by simp [Call.text, NumList.text], _, rfl, fun p => ?_⟩
      simp [mul_def, hn0]
  · obtain ⟨gap, lead, trail, w', hg, hl, ht, ⟨⟨x, y⟩, ⟨w1, w2, rfl, ⟨n0, v0, rfl, hn0⟩, h⟩, rfl⟩, rfl⟩ := h
    simp only at hn0 h
    rcases h with ⟨rfl, rfl⟩ | ⟨b, rfl, s1, n1, hs1, hn1, rfl, rfl⟩
    · refine ⟨⟨"scale", gap, lead, n0, .nil, trail⟩, hg, hl, v0, trivial, ht,
        by simp [Call.text, NumList.text], _, rfl, fun p => ?_⟩
      simp [mul_def, hn0]
    · refine ⟨⟨"scale", gap, lead, n0, .cons s1 n1 .nil, trail⟩, hg, hl, v0, ⟨hs1, hn1, trivial⟩, ht,
        by simp [Call.text, NumList.text], _, rfl, fun p => ?_⟩
      simp [mul_def, hn0]
  · obtain ⟨gap, lead, trail, w', hg, hl, ht, ⟨⟨x, y⟩, ⟨w1, w2, rfl, ⟨n0, v0, rfl, hn0⟩, h⟩, rfl⟩, rfl⟩ := h
    simp only at hn0 h
    rcases h with ⟨rfl, rfl⟩ | ⟨⟨cx, cy⟩, rfl, w3, w4, rfl, ⟨s1, n1, hs1, hn1, rfl, e1⟩,
      s2, n2, hs2, hn2, rfl, e2⟩
    · refine ⟨⟨"rotate", gap, lead, n0, .nil, trail⟩, hg, hl, v0, trivial, ht,
        by simp [Call.text, NumList.text], _, rfl, fun p => ?_⟩
      simp [mul_rotate, hn0, radians, degrees]
    · refine ⟨⟨"rotate", gap, lead, n0, .cons s1 n1 (.cons s2 n2 .nil), trail⟩, hg, hl, v0,
        ⟨hs1, hn1, hs2, hn2, trivial⟩, ht, by simp [Call.text, NumList.text], _, rfl, fun p => ?_⟩
      simp only at e1 e2
      simp only [mul_rotateAround, hn0, e1, e2]
      rfl
  · obtain ⟨gap, lead, trail, w', hg, hl, ht, ⟨x, ⟨n0, v0, rfl, hn0⟩, rfl⟩, rfl⟩ := h
    refine ⟨⟨"skewX", gap, lead, n0, .nil, trail⟩, hg, hl, v0, trivial, ht,
        by simp [Call.text, NumList.text], _, rfl, fun p => ?_⟩
    simp [mul_def, Transform.skewX, hn0, radians, degrees]
  · obtain ⟨gap, lead, trail, w', hg, hl, ht, ⟨x, ⟨n0, v0, rfl, hn0⟩, rfl⟩, rfl⟩ := h
    refine ⟨⟨"skewY", gap, lead, n0, .nil, trail⟩, hg, hl, v0, trivial, ht,
        by simp [Call.text, NumList.text], _, rfl, fun p => ?_⟩
    simp [mul_def, Transform.skewY, hn0, radians, degrees]
    ring

/-! ### Lists -/

/-- No further call follows after a separator. -/
def NoMore (r : List Char) : Prop :=
  ¬ ∃ sep c r', Separator sep ∧ Call.Valid c ∧ r = sep ++ (c.text ++ r')

theorem mul_mul (a b : Transform) (p : Vec) : a * b * p = a * (b * p) := by
  have key : ∀ x y : ℝ, ∀ u v w : ℝ, ∀ b0 b1 b2 b3 b4 b5 : ℝ,
      (u * b0 + v * b1) * x + (u * b2 + v * b3) * y + (u * b4 + v * b5 + w) =
        u * (b0 * x + b2 * y + b4) + v * (b1 * x + b3 * y + b5) + w := by
    intros; ring
  exact Vec.ext (key p.x p.y a.m0 a.m2 a.m4 b.m0 b.m1 b.m2 b.m3 b.m4 b.m5)
    (key p.x p.y a.m1 a.m3 a.m5 b.m0 b.m1 b.m2 b.m3 b.m4 b.m5)

/-- A call starts with a letter. -/
theorem call_noSpace {c : Call} (hc : c.Valid) (r : List Char) :
    NoHead (fun c => isSpace c || c = ',') (c.text ++ r) := by
  have hk := hc.known
  rw [call_eq]
  obtain ⟨name, gap, lead, first, rest, trail⟩ := c
  simp only at *
  unfold meaning at hk
  split at hk <;> first | exact noHead_cons.2 (by decide) | exact absurd rfl hk

theorem call_ne_nil {c : Call} : c.text ≠ [] := by simp [Call.text]

theorem transforms_last {i r : List Char} {t : Transform} (h : transform i = some (r, t))
    (hr : NoMore r) : transforms i = some (r, t) := by
  rw [transforms, h]
  simp only [Option.bind_some]
  rcases hs : commaWsp r with _ | ⟨r2, s⟩
  · rfl
  · simp only [Option.bind_some]
    obtain ⟨w, rfl, hw⟩ := of_commaWsp _ _ _ hs
    have : transforms r2 = none := by
      rcases ht : transform r2 with _ | ⟨r3, t3⟩
      · rw [transforms, ht]; rfl
      · obtain ⟨w2, rfl, c, hc, rfl, -⟩ := of_transform _ _ _ ht
        exact absurd ⟨w, c, r3, hw, hc, rfl⟩ hr
    split
    · rw [this]; rfl
    · rfl

theorem transforms_text (c : Call) (hc : c.Valid) (l : List (List Char × Call))
    (hl : ∀ x ∈ l, Separator x.1 ∧ x.2.Valid) {r : List Char} (hr : NoMore r) :
    ∃ t, transforms (c.text ++ (callsText l ++ r)) = some (r, t) ∧
      ∀ p : Vec, t * p = applyAll (c :: l.map Prod.snd) p := by
  induction l generalizing c with
  | nil =>
    obtain ⟨t, ht, hp⟩ := transform_text c hc r
    exact ⟨t, transforms_last ht hr, by simpa [applyAll] using hp⟩
  | cons x l ih =>
    obtain ⟨sep, d⟩ := x
    obtain ⟨hs, hd⟩ := hl (sep, d) (by simp)
    obtain ⟨u, hu, hpu⟩ := ih d hd fun x hx => hl x (by simp [hx])
    have e : callsText ((sep, d) :: l) ++ r = sep ++ (d.text ++ (callsText l ++ r)) := by
      simp [callsText]
    rw [e]
    obtain ⟨t, ht, hp⟩ := transform_text c hc (sep ++ (d.text ++ (callsText l ++ r)))
    refine ⟨t * u, ?_, fun p => ?_⟩
    · have hlen : (d.text ++ (callsText l ++ r)).length <
          (c.text ++ (sep ++ (d.text ++ (callsText l ++ r)))).length := by
        have := List.length_pos_iff.2 (call_ne_nil (c := c))
        simp only [List.length_append]
        omega
      rw [transforms, ht]
      simp only [Option.bind_some, commaWsp_text hs (call_noSpace hd _), if_pos hlen, hu, Option.map_some]
      rfl
    · rw [mul_mul, hpu, hp]
      rfl

theorem of_transforms : Reads transforms fun w t => ∃ c l, Call.Valid c ∧
    (∀ x ∈ l, Separator x.1 ∧ Call.Valid x.2) ∧ w = c.text ++ callsText l ∧
    ∀ p : Vec, t * p = applyAll (c :: l.map Prod.snd) p := by
  intro i
  induction hlen : i.length using Nat.strong_induction_on generalizing i with
  | _ k ih =>
    intro r t h
    rw [transforms] at h
    rcases ht : transform i with _ | ⟨i1, a⟩
    · rw [ht] at h; cases h
    obtain ⟨w1, rfl, c, hc, rfl, hp⟩ := of_transform _ _ _ ht
    rw [ht] at h
    simp only [Option.bind_some] at h
    have hone : some (i1, a) = some (r, t) → ∃ w, c.text ++ i1 = w ++ r ∧ ∃ c l, Call.Valid c ∧
        (∀ x ∈ l, Separator x.1 ∧ Call.Valid x.2) ∧ w = c.text ++ callsText l ∧
        ∀ p : Vec, t * p = applyAll (c :: l.map Prod.snd) p := by
      intro h
      simp only [Option.some.injEq, Prod.mk.injEq] at h
      obtain ⟨rfl, rfl⟩ := h
      exact ⟨c.text, rfl, c, [], hc, by simp, by simp [callsText], by simpa [applyAll] using hp⟩
    rcases hs : commaWsp i1 with _ | ⟨i2, s⟩
    · rw [hs] at h; exact hone h
    obtain ⟨w2, rfl, hsep⟩ := of_commaWsp _ _ _ hs
    rw [hs] at h
    simp only [Option.bind_some] at h
    split at h
    · rename_i hlt
      rcases hu : transforms i2 with _ | ⟨i3, u⟩
      · rw [hu] at h; exact hone h
      · rw [hu] at h
        simp only [Option.map_some, Option.orElse_some, Option.some.injEq, Prod.mk.injEq] at h
        obtain ⟨rfl, rfl⟩ := h
        obtain ⟨w3, rfl, d, l, hd, hl, rfl, hpu⟩ := ih _ (hlen ▸ hlt) i2 rfl _ _ hu
        refine ⟨c.text ++ w2 ++ (d.text ++ callsText l), by simp, c, (w2, d) :: l, hc, ?_, by simp [callsText],
          fun p => ?_⟩
        · intro x hx
          rcases List.mem_cons.1 hx with rfl | hx
          · exact ⟨hsep, hd⟩
          · exact hl x hx
        · rw [mul_mul, hpu, hp]; rfl
    · exact hone h

end StepperPaths.Svg
