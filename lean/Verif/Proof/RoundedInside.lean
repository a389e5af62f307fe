import Verif.Proof.RoundedTransform

/-! The errors of the transforms inside of elements. -/

namespace StepperPaths.Rounded.Acc
open Spec Coords Draw StepperPaths.Svg Context Spec.Svg

variable {fl : ℝ → ℝ} {lib : Lib} {k l n m : ℕ} {x' x X y' y Y : ℝ} {t' t : Transform}

/-! ### Lengths -/

theorem unit_app (hf : FloatRounding fl) (u : LengthUnit) : App 3 7 (u.valueF fl) u.val u.val ∧ (u.val : ℝ) ≤ 26 := by
  have hi : App 1 0 (fl 25.4) 25.4 25.4 := by
    refine App.rnd (App.exact (by rw [abs_of_pos (by norm_num)]) (.inl (by norm_num))) hf (by norm_num)
  have hp : App 2 7 (fl (fl 25.4 / 72)) (25.4 / 72) (25.4 / 72) := by
    have := (App.divNat (m := 7) (b := 72) hi (by norm_num) (by norm_num)).rnd hf (by norm_num)
    simpa using this
  have hc : App 3 7 (fl (fl (fl 25.4 / 72) * 12)) (25.4 / 72 * 12) (25.4 / 72 * 12) := by
    have := hp.mulr (App.nat 12) hf (by norm_num)
    simpa using this
  have e1 : ((Svg.inch : ℚ) : ℝ) = 25.4 := by unfold Svg.inch; norm_num
  have e2 : ((Svg.pt : ℚ) : ℝ) = 25.4 / 72 := by unfold Svg.pt Svg.inch; norm_num
  cases u with
  | mm => exact ⟨by simpa [LengthUnit.valueF, LengthUnit.val] using App.one 3 7, by norm_num [LengthUnit.val]⟩
  | cm =>
    refine ⟨?_, by norm_num [LengthUnit.val]⟩
    have := (App.nat 10).mono (Nat.zero_le 3) (Nat.zero_le 7)
    simpa [LengthUnit.valueF, LengthUnit.val] using this
  | inch =>
    simp only [LengthUnit.valueF, LengthUnit.val, e1]
    exact ⟨hi.mono (by norm_num) (by norm_num), by norm_num⟩
  | px => exact ⟨by simpa [LengthUnit.valueF, LengthUnit.val, Svg.px] using App.one 3 7, by norm_num [LengthUnit.val, Svg.px]⟩
  | pt =>
    simp only [LengthUnit.valueF, LengthUnit.val, e2]
    exact ⟨hp.mono (by norm_num) (by norm_num), by norm_num⟩
  | pc =>
    simp only [LengthUnit.valueF, LengthUnit.val, Rat.cast_mul, e2, Rat.cast_ofNat]
    exact ⟨hc, by norm_num⟩

theorem length_app (hf : FloatRounding fl) (p : ℚ × Option LengthUnit) :
    App 5 5 (lengthF fl p) (lengthVal p) (max |((lengthVal p : ℚ) : ℝ)| (1 / 2 ^ 5)) := by
  have key : ∀ (v : ℚ) (w' w u : ℝ), App 5 17 w' w (mag v * u) → w = v * u → 0 ≤ u → u ≤ 26 → App 5 5 w' w (max |w| (1 / 2 ^ 5)) := by
    intro v w' w u h hw h0 h1
    have hb : mag v * u ≤ max |w| (1 / 2 ^ 5) := by
      unfold mag
      split
      · simp
      · rw [max_mul_of_nonneg _ _ h0, hw, abs_mul, abs_of_nonneg h0]
        refine max_le_max le_rfl ?_
        linarith
    have := h.wide hb
    exact ⟨this.le, this.err, .inl (le_max_right _ _)⟩
  obtain ⟨v, _ | u⟩ := p
  · refine key v _ _ 1 ?_ (by simp [lengthVal]) (by norm_num) (by norm_num)
    simpa [lengthF, lengthVal] using (mag_app hf v).mono (l := 5) (m := 17) (by norm_num) (by norm_num)
  · obtain ⟨h1, h2⟩ := unit_app hf u
    refine key v _ _ u.val ?_ (by simp [lengthVal]) h1.nonneg h2
    have := (mag_app hf v).mulr h1 hf (by norm_num)
    simpa [lengthF, lengthVal] using this

theorem ratio_app (hf : FloatRounding fl) (p : ℚ × Option LengthUnit) (v : ℚ) {x : ℝ} (h : ratio (lengthVal p) v = some x) :
    App 9 32 (fl (lengthF fl p / fl v)) (lengthVal p / v) x := by
  unfold ratio at h
  split at h
  · rename_i hv
    cases h
    have hp : (0 : ℝ) < |(v : ℝ)| := lt_of_lt_of_le (by norm_num) hv.1
    have h1 : App 1 20 (fl v) v |(v : ℝ)| := App.rnd (App.exact le_rfl (.inl hv.1)) hf (by norm_num)
    have hg : g 1 ≤ 1 / 2 := by rw [g_one]; norm_num
    have h2 := h1.inv (abs_pos.1 hp) hg hv.2
    have h3 := (length_app hf p).mulr h2 hf (by norm_num)
    simp only [mul_one_div] at h3
    exact h3.mono (by norm_num) (by norm_num)
  · cases h

theorem ratio_self (hf : FloatRounding fl) (p : ℚ × Option LengthUnit) {x : ℝ} (h : ratio (lengthVal p) (lengthVal p) = some x) :
    fl (lengthF fl p / lengthF fl p) = 1 ∧ ((lengthVal p : ℚ) : ℝ) / (lengthVal p : ℚ) = 1 := by
  unfold ratio at h
  split at h
  · rename_i hv
    have hp : (0 : ℝ) < |((lengthVal p : ℚ) : ℝ)| := lt_of_lt_of_le (by norm_num) hv.1
    have h1 := (length_app hf p).err
    have h2 : max |((lengthVal p : ℚ) : ℝ)| (1 / 2 ^ 5) ≤ 2 ^ 20 * |((lengthVal p : ℚ) : ℝ)| :=
      max_le (by linarith) (by
        have := mul_le_mul_of_nonneg_left hv.1 (by norm_num : (0 : ℝ) ≤ 2 ^ 20)
        refine le_trans ?_ this
        norm_num)
    have h3 : g 5 ≤ 10 / 2 ^ 52 := (g_le (by norm_num)).trans (by norm_num)
    have hne : lengthF fl p ≠ 0 := by
      intro h0
      rw [h0, zero_sub, abs_neg] at h1
      have h4 : g 5 * max |((lengthVal p : ℚ) : ℝ)| (1 / 2 ^ 5) ≤ 10 / 2 ^ 52 * (2 ^ 20 * |((lengthVal p : ℚ) : ℝ)|) := by
        gcongr
      have h5 : (10 : ℝ) / 2 ^ 52 * (2 ^ 20 * |((lengthVal p : ℚ) : ℝ)|) ≤ 1 / 2 * |((lengthVal p : ℚ) : ℝ)| := by
        rw [← mul_assoc]
        gcongr
        norm_num
      linarith
    refine ⟨?_, div_self (abs_pos.1 hp)⟩
    rw [div_self hne]
    simpa using hf.int 1 (by norm_num)
  · cases h

/-! ### Elements -/

/-- `inside` with rounding. -/
noncomputable def insideF (fl : ℝ → ℝ) (lib : Lib) (t : Transform) (name : Name) (attrs : List Attr) : Option Transform :=
  ((texts "transform" attrs).mapM (parseTransformF fl lib)).bind fun ts =>
  ((texts "viewBox" attrs).mapM parseViewBox).bind fun boxes =>
  let t := ts.foldl (tmul fl) t
  if name.local = "svg" then
    ((texts "width" attrs).getLast?.bind (parseLengthF fl)).bind fun w =>
    ((texts "height" attrs).getLast?.bind (parseLengthF fl)).map fun h =>
      match boxes.getLast? with
      | some (_, _, vw, vh) => tmul fl t ⟨fl (w / fl vw), 0, 0, fl (h / fl vh), 0, 0⟩
      | none => tmul fl t ⟨fl (w / w), 0, 0, fl (h / h), 0, 0⟩
  else some t

theorem attr_count {s s' : Size} {text : List Char} (h : s.attr text = some s') : s.count ≤ s'.count := by
  unfold Size.attr at h
  rw [Option.bind_eq_some_iff] at h
  obtain ⟨l, -, h⟩ := h
  rw [Option.map_eq_some_iff] at h
  obtain ⟨bs, -, rfl⟩ := h
  clear * -
  induction bs generalizing s with
  | nil => exact le_rfl
  | cons b bs ih => exact (Nat.le_succ _).trans (ih (s := s.times b))

theorem attrs_count : ∀ (l : List (List Char)) {s s' : Size}, l.foldlM Size.attr s = some s' → s.count ≤ s'.count
  | [], s, s', h => by cases h; exact le_rfl
  | a :: l, s, s', h => by
    rw [List.foldlM_cons] at h
    simp only [Option.bind_eq_bind, Option.bind_eq_some_iff] at h
    obtain ⟨s1, h1, h2⟩ := h
    exact (attr_count h1).trans (attrs_count l h2)

theorem Near.attrs (hf : FloatRounding fl) (hl : FloatLib lib) : ∀ (l : List (List Char)) {s s' : Size} {t' t : Transform},
    Near t' t s → l.foldlM Size.attr s = some s' → s'.count ≤ 30 →
    ∃ us' us, l.mapM (parseTransformF fl lib) = some us' ∧ l.mapM parseTransform = some us ∧
      Near (us'.foldl (tmul fl) t') (us.foldl (· * ·) t) s'
  | [], s, s', t', t, h, hs, _ => by cases hs; exact ⟨[], [], rfl, rfl, h⟩
  | a :: l, s, s', t', t, h, hs, hn => by
    rw [List.foldlM_cons] at hs
    simp only [Option.bind_eq_bind, Option.bind_eq_some_iff] at hs
    obtain ⟨s1, h1, h2⟩ := hs
    obtain ⟨u', u, e1, e2, h3⟩ := h.attr hf hl h1 ((attrs_count l h2).trans hn)
    obtain ⟨us', us, e3, e4, h4⟩ := Near.attrs hf hl l h3 h2 hn
    exact ⟨u' :: us', u :: us, by simp [e1, e3], by simp [e2, e4], h4⟩

theorem Near.scale (hf : FloatRounding fl) {s : Size} (h : Near t' t s) {sx' sx Sx sy' sy Sy : ℝ} (hx : App 9 32 sx' sx Sx)
    (hy : App 9 32 sy' sy Sy) (hn : s.count + 1 ≤ 30) :
    Near (tmul fl t' ⟨sx', 0, 0, sy', 0, 0⟩) (t * ⟨sx, 0, 0, sy, 0, 0⟩) (s.times ⟨Sx, 0, 0, Sy, 0, 0⟩) := by
  have zero : App 9 32 0 0 0 := App.zero 9 32 le_rfl
  have h1 : TApp 9 32 ⟨sx', 0, 0, sy', 0, 0⟩ ⟨sx, 0, 0, sy, 0, 0⟩ ⟨Sx, 0, 0, Sy, 0, 0⟩ := ⟨hx, zero, zero, hy, zero, zero⟩
  exact (h.mul h1 hf (by omega)).mono (by simp only [Size.times]; omega) (by simp only [Size.times]; omega)

theorem inside_count {s s' : Size} {name : Name} {attrs : List Attr} (h : s.inside name attrs = some s') : s.count ≤ s'.count := by
  unfold Size.inside at h
  simp only [Option.bind_eq_some_iff] at h
  obtain ⟨s1, h1, boxes, -, h⟩ := h
  have h2 := attrs_count _ h1
  split at h
  · simp only [Option.bind_eq_some_iff] at h
    obtain ⟨w, -, v, -, h⟩ := h
    split at h
    · simp only [Option.bind_eq_some_iff, Option.map_eq_some_iff] at h
      obtain ⟨_, -, _, -, rfl⟩ := h
      exact h2.trans (Nat.le_succ _)
    · simp only [Option.bind_eq_some_iff, Option.map_eq_some_iff] at h
      obtain ⟨_, -, _, -, rfl⟩ := h
      exact h2.trans (Nat.le_succ _)
  · cases h; exact h2

theorem Near.inside (hf : FloatRounding fl) (hl : FloatLib lib) {s s' : Size} (h : Near t' t s) {name : Name} {attrs : List Attr}
    (hs : s.inside name attrs = some s') (hn : s'.count ≤ 30) :
    ∃ u' u, insideF fl lib t' name attrs = some u' ∧ inside t name attrs = some u ∧ Near u' u s' := by
  have hcount := inside_count hs
  unfold Size.inside at hs
  simp only [Option.bind_eq_some_iff] at hs
  obtain ⟨s1, h1, boxes, hb, hs⟩ := hs
  have hle : s1.count ≤ 30 ∧ (name.local = "svg" → s1.count + 1 ≤ 30) := by
    split at hs
    · rename_i hsvg
      simp only [Option.bind_eq_some_iff] at hs
      obtain ⟨w, -, v, -, hs⟩ := hs
      have : s1.count + 1 ≤ 30 := by
        split at hs
        · simp only [Option.bind_eq_some_iff, Option.map_eq_some_iff] at hs
          obtain ⟨_, -, _, -, rfl⟩ := hs
          exact hn
        · simp only [Option.bind_eq_some_iff, Option.map_eq_some_iff] at hs
          obtain ⟨_, -, _, -, rfl⟩ := hs
          exact hn
      exact ⟨by omega, fun _ => this⟩
    · rename_i hsvg
      cases hs; exact ⟨hn, fun h => absurd h hsvg⟩
  obtain ⟨us', us, e1, e2, h2⟩ := h.attrs hf hl _ h1 hle.1
  unfold insideF Spec.Svg.inside
  simp only [e1, e2, hb, Option.bind_some]
  split at hs
  · rename_i hsvg
    simp only [hsvg, if_true]
    simp only [Option.bind_eq_some_iff] at hs
    obtain ⟨w, ⟨wt, hwt, hw⟩, v, ⟨vt, hvt, hv⟩, hs⟩ := hs
    rw [lengthParts_val, Option.map_eq_some_iff] at hw hv
    obtain ⟨pw, hpw, rfl⟩ := hw
    obtain ⟨pv, hpv, rfl⟩ := hv
    have l1 : (texts "width" attrs).getLast?.bind (parseLengthF fl) = some (lengthF fl pw) := by
      rw [hwt, Option.bind_some, parseLengthF, hpw]; rfl
    have l2 : (texts "height" attrs).getLast?.bind (parseLengthF fl) = some (lengthF fl pv) := by
      rw [hvt, Option.bind_some, parseLengthF, hpv]; rfl
    have l3 : (texts "width" attrs).getLast?.bind parseLength = some (lengthVal pw) := by
      rw [hwt, Option.bind_some, lengthParts_val, hpw]; rfl
    have l4 : (texts "height" attrs).getLast?.bind parseLength = some (lengthVal pv) := by
      rw [hvt, Option.bind_some, lengthParts_val, hpv]; rfl
    simp only [l1, l2, l3, l4, Option.bind_some, Option.map_some]
    rcases hbx : boxes.getLast? with _ | ⟨bx, b_y, vw, vh⟩
    · rw [hbx] at hs
      simp only [Option.bind_eq_some_iff, Option.map_eq_some_iff] at hs
      obtain ⟨X, hX, Y, hY, rfl⟩ := hs
      obtain ⟨r1, r2⟩ := ratio_self hf pw hX
      obtain ⟨r3, r4⟩ := ratio_self hf pv hY
      refine ⟨_, _, rfl, rfl, ?_⟩
      simp only [r1, r2, r3, r4]
      exact h2.scale hf (App.one 9 32) (App.one 9 32) (hle.2 hsvg)
    · rw [hbx] at hs
      simp only [Option.bind_eq_some_iff, Option.map_eq_some_iff] at hs
      obtain ⟨X, hX, Y, hY, rfl⟩ := hs
      exact ⟨_, _, rfl, rfl, h2.scale hf (ratio_app hf pw vw hX) (ratio_app hf pv vh hY) (hle.2 hsvg)⟩
  · rename_i hsvg
    cases hs
    simp only [hsvg, if_false]
    exact ⟨_, _, rfl, rfl, h2⟩

/-! ### Documents -/

/-- `paths` with rounding. -/
noncomputable def pathsF (fl : ℝ → ℝ) (lib : Lib) (keep : Filter) (t : Transform) : Forest → Option (List (Transform × List Char))
  | .nil => some []
  | .other rest => pathsF fl lib keep t rest
  | .elem name attrs kids rest =>
    let own :=
      if keep name attrs then
        if name.ns = some "http://www.w3.org/2000/svg" then
          (insideF fl lib t name attrs).bind fun t' =>
            if name.local = "path" then
              (texts "d" attrs).getLast?.bind fun d => (pathsF fl lib keep t' kids).map fun l => (t', d) :: l
            else pathsF fl lib keep t' kids
        else pathsF fl lib keep t kids
      else some []
    own.bind fun l => (pathsF fl lib keep t rest).map fun l' => l ++ l'

/-- The computed paths are close to the exact ones. -/
inductive NearPaths : List (Transform × List Char) → List (Transform × List Char) → List Size → Prop
  | nil : NearPaths [] [] []
  | cons {t' t d s p' p z} : Near t' t s → NearPaths p' p z → NearPaths ((t', d) :: p') ((t, d) :: p) (s :: z)

theorem NearPaths.append {p' p q' q : List (Transform × List Char)} {z y : List Size} (h : NearPaths p' p z) (h' : NearPaths q' q y) :
    NearPaths (p' ++ q') (p ++ q) (z ++ y) := by
  induction h with
  | nil => exact h'
  | cons h _ ih => exact .cons h ih

theorem transforms_some : ∀ {l : List (List Char)} {us : List Transform}, l.mapM parseTransform = some us →
    ∃ us', l.mapM (parseTransformF fl lib) = some us'
  | [], _, _ => ⟨[], rfl⟩
  | a :: l, us, h => by
    rw [List.mapM_cons] at h
    simp only [Option.pure_def, Option.bind_eq_bind, Option.bind_eq_some_iff] at h
    obtain ⟨u, hu, us1, h1, -⟩ := h
    obtain ⟨us', h'⟩ := transforms_some h1
    rw [calls_eval, Option.map_eq_some_iff] at hu
    obtain ⟨c, hc, -⟩ := hu
    exact ⟨evalAllF fl lib c :: us', by simp [parseTransformF, hc, h']⟩

theorem length_some {o : Option (List Char)} {w : ℚ} (h : o.bind parseLength = some w) : ∃ w', o.bind (parseLengthF fl) = some w' := by
  rw [Option.bind_eq_some_iff] at h
  obtain ⟨x, rfl, h⟩ := h
  rw [lengthParts_val, Option.map_eq_some_iff] at h
  obtain ⟨c, hc, -⟩ := h
  exact ⟨lengthF fl c, by simp [parseLengthF, hc]⟩

theorem inside_some {t u : Transform} {name : Name} {attrs : List Attr} (h : inside t name attrs = some u) (t' : Transform) :
    ∃ u', insideF fl lib t' name attrs = some u' := by
  unfold Spec.Svg.inside at h
  simp only [Option.bind_eq_some_iff] at h
  obtain ⟨ts, h1, boxes, h2, h⟩ := h
  obtain ⟨us', h1'⟩ := transforms_some (fl := fl) (lib := lib) h1
  unfold insideF
  simp only [h1', h2, Option.bind_some]
  split at h
  · rename_i hs
    simp only [hs, if_true]
    simp only [Option.bind_eq_some_iff, Option.map_eq_some_iff] at h
    obtain ⟨w, h3, v, h4, -⟩ := h
    rw [← Option.bind_eq_some_iff] at h3
    simp only [Option.bind_eq_bind] at h4
    obtain ⟨v1, h4, -⟩ := Option.bind_eq_some_iff.1 h4
    obtain ⟨w', e1⟩ := length_some (fl := fl) h3
    obtain ⟨v', e2⟩ := length_some (fl := fl) h4
    rw [e1, e2]
    exact ⟨_, rfl⟩
  · rename_i hs
    simp only [hs, if_false]
    exact ⟨_, rfl⟩

theorem paths_near (hf : FloatRounding fl) (hl : FloatLib lib) (keep : Filter) (f : Forest) {t' t : Transform} {s : Size}
    {p : List (Transform × List Char)} {z : List Size} (h : s.count ≤ 30 → Near t' t s) (hp : f.paths keep t = some p)
    (hz : f.sizes keep s = some z) (hn : ∀ s ∈ z, s.count ≤ 30) :
    ∃ p', pathsF fl lib keep t' f = some p' ∧ NearPaths p' p z := by
  induction f generalizing t' t s p z with
  | nil => cases hp; cases hz; exact ⟨[], rfl, .nil⟩
  | other rest ih => exact ih h hp hz hn
  | elem name attrs kids rest ihk ihr =>
    unfold Forest.paths at hp
    unfold Forest.sizes at hz
    simp only [Option.bind_eq_some_iff, Option.map_eq_some_iff] at hp hz
    obtain ⟨p1, hp1, p2, hp2, rfl⟩ := hp
    obtain ⟨z1, hz1, z2, hz2, rfl⟩ := hz
    obtain ⟨q2, hq2, n2⟩ := ihr h hp2 hz2 fun s hs => hn s (by simp [hs])
    have hn1 : ∀ s ∈ z1, s.count ≤ 30 := fun s hs => hn s (by simp [hs])
    unfold pathsF
    suffices hh : ∃ q1, (if keep name attrs then
        if name.ns = some "http://www.w3.org/2000/svg" then
          (insideF fl lib t' name attrs).bind fun t' =>
            if name.local = "path" then
              (texts "d" attrs).getLast?.bind fun d => (pathsF fl lib keep t' kids).map fun l => (t', d) :: l
            else pathsF fl lib keep t' kids
        else pathsF fl lib keep t' kids
      else some []) = some q1 ∧ NearPaths q1 p1 z1 by
      obtain ⟨q1, hq1, n1⟩ := hh
      exact ⟨q1 ++ q2, by simp only [hq1, hq2, Option.bind_some, Option.map_some], n1.append n2⟩
    split at hp1
    · rename_i hk
      simp only [hk, if_true] at hz1 ⊢
      split at hp1
      · rename_i hns
        simp only [hns, if_true] at hz1 ⊢
        simp only [Option.bind_eq_some_iff] at hp1 hz1
        obtain ⟨u, hu, hp1⟩ := hp1
        obtain ⟨s1, hs1, hz1⟩ := hz1
        obtain ⟨u', hu'⟩ := inside_some (fl := fl) (lib := lib) hu t'
        have near : s1.count ≤ 30 → Near u' u s1 := by
          intro hc
          obtain ⟨v', v, e1, e2, h1⟩ := (h ((inside_count hs1).trans hc)).inside hf hl hs1 hc
          rw [hu'] at e1; rw [hu] at e2
          cases e1; cases e2; exact h1
        simp only [hu', Option.bind_some]
        split at hp1
        · rename_i hpath
          simp only [hpath, if_true] at hz1 ⊢
          simp only [Option.bind_eq_some_iff, Option.map_eq_some_iff] at hp1 hz1
          obtain ⟨d, hd, p3, hp3, rfl⟩ := hp1
          obtain ⟨z3, hz3, rfl⟩ := hz1
          obtain ⟨q3, hq3, n3⟩ := ihk near hp3 hz3 fun s hs => hn1 s (by simp [hs])
          exact ⟨(u', d) :: q3, by simp [hd, hq3], .cons (near (hn1 s1 (by simp))) n3⟩
        · rename_i hpath
          simp only [hpath, if_false] at hz1 ⊢
          exact ihk near hp1 hz1 hn1
      · rename_i hns
        simp only [hns, if_false] at hz1 ⊢
        exact ihk h hp1 hz1 hn1
    · rename_i hk
      simp only [hk] at hz1 ⊢
      cases hp1; cases hz1
      exact ⟨[], rfl, .nil⟩

end StepperPaths.Rounded.Acc
