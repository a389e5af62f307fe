import Verif.Proof.RoundedApp
import Verif.Proof.RoundedSvgText
import Mathlib.Analysis.Real.Pi.Bounds

/-! The errors of transforms. -/

namespace StepperPaths.Rounded.Acc
open Spec Coords Draw StepperPaths.Svg Context

variable {fl : ℝ → ℝ} {lib : Lib} {k l n m : ℕ} {x' x X y' y Y : ℝ}

/-! ### Numbers -/

theorem mag_nonneg (q : ℚ) : 0 ≤ mag q := by
  unfold mag
  split
  · exact le_rfl
  · exact (abs_nonneg _).trans (le_max_left _ _)

theorem le_mag (q : ℚ) : |(q : ℝ)| ≤ mag q := by
  unfold mag
  split
  · rename_i h; simp [h]
  · exact le_max_left _ _

theorem mag_app (hf : FloatRounding fl) (q : ℚ) : App 1 10 (fl q) q (mag q) := by
  refine App.rnd (App.exact (le_mag q) ?_) hf (by norm_num)
  unfold mag
  split
  · rename_i h; right; simp [h]
  · left; exact le_max_right _ _

theorem App.one (k n : ℕ) : App k n 1 1 1 := by
  have : App 0 0 ((1 : ℕ) : ℝ) ((1 : ℕ) : ℝ) ((1 : ℕ) : ℝ) := App.nat 1
  simp only [Nat.cast_one] at this
  exact this.mono (Nat.zero_le _) (Nat.zero_le _)

/-- A product, rounded. -/
theorem App.mulr (h : App k n x' x X) (h' : App l m y' y Y) (hf : FloatRounding fl) (hn : n + m ≤ 1022) :
    App (k + l + 1) (n + m) (fl (x' * y')) (x * y) (X * Y) := (h.mul h').rnd hf hn

/-- A sum, rounded. -/
theorem App.addr (h : App k n x' x X) (h' : App k n y' y Y) (hf : FloatRounding fl) (hn : n ≤ 1022) :
    App (k + 1) n (fl (x' + y')) (x + y) (X + Y) := (h.add h').rnd hf hn

theorem App.subr (h : App k n x' x X) (h' : App k n y' y Y) (hf : FloatRounding fl) (hn : n ≤ 1022) :
    App (k + 1) n (fl (x' - y')) (x - y) (X + Y) := (h.sub h').rnd hf hn

/-! ### Products of transforms -/

/-- The same for all entries. -/
structure TApp (k n : ℕ) (t' t A : Transform) : Prop where
  m0 : App k n t'.m0 t.m0 A.m0
  m1 : App k n t'.m1 t.m1 A.m1
  m2 : App k n t'.m2 t.m2 A.m2
  m3 : App k n t'.m3 t.m3 A.m3
  m4 : App k n t'.m4 t.m4 A.m4
  m5 : App k n t'.m5 t.m5 A.m5

/-- The same for both coordinates. -/
structure VApp (k n : ℕ) (v' v V : Vec) : Prop where
  x : App k n v'.x v.x V.x
  y : App k n v'.y v.y V.y

variable {t' t A b' b B : Transform} {v' v V w' w W : Vec}

theorem TApp.mono (h : TApp k n t' t A) (hk : k ≤ l) (hn : n ≤ m) : TApp l m t' t A :=
  ⟨h.m0.mono hk hn, h.m1.mono hk hn, h.m2.mono hk hn, h.m3.mono hk hn, h.m4.mono hk hn, h.m5.mono hk hn⟩

theorem VApp.mono (h : VApp k n v' v V) (hk : k ≤ l) (hn : n ≤ m) : VApp l m v' v V :=
  ⟨h.x.mono hk hn, h.y.mono hk hn⟩

theorem VApp.wide (h : VApp k n v' v V) (hx : V.x ≤ W.x) (hy : V.y ≤ W.y) : VApp k n v' v W := ⟨h.x.wide hx, h.y.wide hy⟩

theorem dot_app {a' a A b' b B p' p P q' q Q : ℝ} (h1 : App k n a' a A) (h2 : App l m p' p P) (h3 : App k n b' b B)
    (h4 : App l m q' q Q) (hf : FloatRounding fl) (hn : n + m ≤ 1022) :
    App (k + l + 2) (n + m) (fl (fl (a' * p') + fl (b' * q'))) (a * p + b * q) (A * P + B * Q) :=
  (h1.mulr h2 hf hn).addr (h3.mulr h4 hf hn) hf hn

theorem dot3_app {a' a A b' b B p' p P q' q Q c' c C : ℝ} (h1 : App k n a' a A) (h2 : App l m p' p P) (h3 : App k n b' b B)
    (h4 : App l m q' q Q) (h5 : App k n c' c C) (hf : FloatRounding fl) (hn : n + m ≤ 1022) :
    App (k + l + 3) (n + m) (fl (fl (fl (a' * p') + fl (b' * q')) + c')) (a * p + b * q + c) (A * P + B * Q + C) :=
  (dot_app h1 h2 h3 h4 hf hn).addr (h5.mono (by omega) (by omega)) hf hn

theorem TApp.mul (h : TApp k n t' t A) (h' : TApp l m b' b B) (hf : FloatRounding fl) (hn : n + m ≤ 1022) :
    TApp (k + l + 3) (n + m) (tmul fl t' b') (t * b) (A * B) :=
  ⟨(dot_app h.m0 h'.m0 h.m2 h'.m1 hf hn).mono (by omega) le_rfl, (dot_app h.m1 h'.m0 h.m3 h'.m1 hf hn).mono (by omega) le_rfl,
    (dot_app h.m0 h'.m2 h.m2 h'.m3 hf hn).mono (by omega) le_rfl, (dot_app h.m1 h'.m2 h.m3 h'.m3 hf hn).mono (by omega) le_rfl,
    dot3_app h.m0 h'.m4 h.m2 h'.m5 h.m4 hf hn, dot3_app h.m1 h'.m4 h.m3 h'.m5 h.m5 hf hn⟩

theorem TApp.apply (h : TApp k n t' t A) (h' : VApp l m v' v V) (hf : FloatRounding fl) (hn : n + m ≤ 1022) :
    VApp (k + l + 3) (n + m) (tapply fl t' v') (t * v) (A * V) :=
  ⟨dot3_app h.m0 h'.x h.m2 h'.y h.m4 hf hn, dot3_app h.m1 h'.x h.m3 h'.y h.m5 hf hn⟩

theorem TApp.identity (k n : ℕ) : TApp k n .identity .identity .identity :=
  ⟨App.one k n, App.zero k n le_rfl, App.zero k n le_rfl, App.one k n, App.zero k n le_rfl, App.zero k n le_rfl⟩

theorem transform_assoc (a b c : Transform) : a * b * c = a * (b * c) := by
  have hm : ∀ a b : Transform, a * b = ⟨a.m0 * b.m0 + a.m2 * b.m1, a.m1 * b.m0 + a.m3 * b.m1, a.m0 * b.m2 + a.m2 * b.m3,
    a.m1 * b.m2 + a.m3 * b.m3, a.m0 * b.m4 + a.m2 * b.m5 + a.m4, a.m1 * b.m4 + a.m3 * b.m5 + a.m5⟩ := fun _ _ => rfl
  simp only [hm]
  ext <;> simp only <;> ring

/-! ### Calls -/

theorem pi_small : Real.pi / 180 ≤ 1 / 50 := by
  have := Real.pi_lt_d2
  linarith

theorem radians_app (hf : FloatRounding fl) (a : ℚ) : App 4 18 (radiansF fl a) (radians a) (mag a / 50) := by
  have hm := mag_nonneg a
  have hp : App 1 0 (fl Real.pi) Real.pi Real.pi := by
    refine App.rnd (App.exact (by rw [abs_of_pos Real.pi_pos]) (.inl ?_)) hf (by norm_num)
    have := Real.pi_gt_three
    norm_num; linarith
  have h1 := (mag_app hf a).mulr hp hf (by norm_num)
  have h2 : App 3 18 (fl (fl a * fl Real.pi) / ((180 : ℕ) : ℝ)) (a * Real.pi / ((180 : ℕ) : ℝ)) (mag a * Real.pi / ((180 : ℕ) : ℝ)) :=
    App.divNat (m := 8) h1 (by norm_num) (by norm_num)
  have hb : mag a * Real.pi / 180 ≤ mag a / 50 := by
    have := mul_le_mul_of_nonneg_left pi_small hm
    calc _ = mag a * (Real.pi / 180) := by ring
      _ ≤ _ := this
      _ = _ := by ring
  have h3 := (h2.rnd hf (by norm_num)).wide (Y := mag a / 50) (by simpa using hb)
  simpa [radians, radiansF] using h3

theorem g_one : g 1 = 1 / 2 ^ 52 := by simp [g]

theorem sin_app (hl : FloatLib lib) {θ' θ Θ : ℝ} (h : App 4 n θ' θ Θ) : App 5 0 (lib.sin θ') (Real.sin θ) (1 + Θ) := by
  have h0 := h.nonneg
  refine ⟨(Real.abs_sin_le_one θ).trans (by linarith), ?_, .inl (by norm_num; linarith)⟩
  have h1 := hl.trig.sin θ'
  have h2 := Real.abs_sin_sub_sin_le θ' θ
  have e : lib.sin θ' - Real.sin θ = (lib.sin θ' - Real.sin θ') + (Real.sin θ' - Real.sin θ) := by ring
  rw [e]
  refine (abs_add_le _ _).trans ?_
  have h3 : g 1 ≤ g 5 := g_mono (by norm_num)
  have h4 : g 4 * Θ ≤ g 5 * Θ := mul_le_mul_of_nonneg_right (g_mono (by norm_num)) h0
  rw [g_one] at h3
  linarith [h.err]

theorem cos_app (hl : FloatLib lib) {θ' θ Θ : ℝ} (h : App 4 n θ' θ Θ) : App 5 0 (lib.cos θ') (Real.cos θ) (1 + Θ) := by
  have h0 := h.nonneg
  refine ⟨(Real.abs_cos_le_one θ).trans (by linarith), ?_, .inl (by norm_num; linarith)⟩
  have h1 := hl.trig.cos θ'
  have h2 := Real.abs_cos_sub_cos_le θ' θ
  have e : lib.cos θ' - Real.cos θ = (lib.cos θ' - Real.cos θ') + (Real.cos θ' - Real.cos θ) := by ring
  rw [e]
  refine (abs_add_le _ _).trans ?_
  have h3 : g 1 ≤ g 5 := g_mono (by norm_num)
  have h4 : g 4 * Θ ≤ g 5 * Θ := mul_le_mul_of_nonneg_right (g_mono (by norm_num)) h0
  rw [g_one] at h3
  linarith [h.err]

theorem tan_app (hl : FloatLib lib) {θ' θ μ : ℝ} (h : App 4 n θ' θ (μ / 50)) (hc : 1 / 2 ^ 20 ≤ |Real.cos θ|) (hμ : μ ≤ 2 ^ 10) :
    App 5 0 (lib.tan θ') (Real.tan θ) ((3 + μ) / Real.cos θ ^ 2) := by
  have h0 : 0 ≤ μ := by linarith [h.nonneg]
  set c := |Real.cos θ| with hcdef
  have hcp : 0 < c := lt_of_lt_of_le (by norm_num) hc
  have hc1 : c ≤ 1 := Real.abs_cos_le_one θ
  have hsq : Real.cos θ ^ 2 = c ^ 2 := (sq_abs _).symm
  have hg4 : g 4 ≤ 8 / 2 ^ 52 := (g_le (by norm_num)).trans (by norm_num)
  have hδ : |θ' - θ| ≤ c / 2 := by
    have h1 : g 4 * (μ / 50) ≤ 8 / 2 ^ 52 * (2 ^ 10 / 50) := by gcongr
    have h2 : (8 : ℝ) / 2 ^ 52 * (2 ^ 10 / 50) ≤ 1 / 2 ^ 20 / 2 := by norm_num
    linarith [h.err]
  have hc' : c / 2 ≤ |Real.cos θ'| := by
    have h1 := Real.abs_cos_sub_cos_le θ' θ
    have h2 := abs_sub_abs_le_abs_sub (Real.cos θ) (Real.cos θ')
    rw [abs_sub_comm] at h2
    linarith
  have hc'p : 0 < |Real.cos θ'| := by linarith
  have hn : Real.cos θ ≠ 0 := abs_pos.1 hcp
  have hn' : Real.cos θ' ≠ 0 := abs_pos.1 hc'p
  have hdiff : |Real.tan θ' - Real.tan θ| ≤ 2 * |θ' - θ| / c ^ 2 := by
    have e : Real.tan θ' - Real.tan θ = Real.sin (θ' - θ) / (Real.cos θ' * Real.cos θ) := by
      rw [Real.tan_eq_sin_div_cos, Real.tan_eq_sin_div_cos, Real.sin_sub]
      field_simp
    rw [e, abs_div, abs_mul, div_le_div_iff₀ (mul_pos hc'p hcp) (by positivity)]
    have h1 : |Real.sin (θ' - θ)| ≤ |θ' - θ| := Real.abs_sin_le_abs
    calc |Real.sin (θ' - θ)| * c ^ 2 ≤ |θ' - θ| * c ^ 2 := by gcongr
      _ = 2 * |θ' - θ| * (c / 2 * c) := by ring
      _ ≤ 2 * |θ' - θ| * (|Real.cos θ'| * c) := by gcongr
  have ht' : |Real.tan θ'| ≤ 2 / c ^ 2 := by
    rw [Real.tan_eq_sin_div_cos, abs_div, div_le_div_iff₀ hc'p (by positivity)]
    have h1 := Real.abs_sin_le_one θ'
    calc |Real.sin θ'| * c ^ 2 ≤ 1 * c := by
          refine mul_le_mul h1 ?_ (by positivity) (by norm_num)
          nlinarith
      _ = 2 * (c / 2) := by ring
      _ ≤ _ := by gcongr
  have ht : |Real.tan θ| ≤ 1 / c ^ 2 := by
    rw [Real.tan_eq_sin_div_cos, abs_div, ← hcdef, div_le_div_iff₀ hcp (by positivity)]
    have h1 := Real.abs_sin_le_one θ
    refine mul_le_mul h1 ?_ (by positivity) (by norm_num)
    nlinarith
  have h1c : 1 ≤ 1 / c ^ 2 := by
    rw [le_div_iff₀ (by positivity)]
    nlinarith
  rw [hsq]
  have hb : 1 / c ^ 2 ≤ (3 + μ) / c ^ 2 := by gcongr; linarith
  refine ⟨ht.trans hb, ?_, .inl (by norm_num; exact (h1c.trans hb))⟩
  have e : lib.tan θ' - Real.tan θ = (lib.tan θ' - Real.tan θ') + (Real.tan θ' - Real.tan θ) := by ring
  rw [e]
  refine (abs_add_le _ _).trans ?_
  have h1 : |lib.tan θ' - Real.tan θ'| ≤ 1 / 2 ^ 52 * (3 / c ^ 2) := by
    refine (hl.tan θ').trans ?_
    have : 1 + |Real.tan θ'| ≤ 3 / c ^ 2 := by
      calc 1 + |Real.tan θ'| ≤ 1 / c ^ 2 + 2 / c ^ 2 := add_le_add h1c ht'
        _ = _ := by ring
    gcongr
  have h2 : |Real.tan θ' - Real.tan θ| ≤ g 5 * (μ / c ^ 2) := by
    refine hdiff.trans ?_
    have h3 : |θ' - θ| ≤ g 5 * (μ / 50) := h.err.trans (mul_le_mul_of_nonneg_right (g_mono (by norm_num)) (by linarith))
    have h4 : 2 * |θ' - θ| ≤ g 5 * μ := by
      have := mul_nonneg (g_nonneg 5) h0
      linarith
    calc 2 * |θ' - θ| / c ^ 2 ≤ g 5 * μ / c ^ 2 := by gcongr
      _ = _ := by ring
  have h3 : (1 : ℝ) / 2 ^ 52 * (3 / c ^ 2) ≤ g 5 * (3 / c ^ 2) := by
    have : g 1 ≤ g 5 := g_mono (by norm_num)
    rw [g_one] at this
    gcongr
  calc _ ≤ g 5 * (3 / c ^ 2) + g 5 * (μ / c ^ 2) := by linarith
    _ = _ := by ring

theorem fn_app (hf : FloatRounding fl) (hl : FloatLib lib) (f : Fn) {B : Transform} (h : f.size = some B) :
    TApp 9 32 (f.evalF fl lib) f.eval B := by
  have num : ∀ q : ℚ, App 9 32 (fl q) q (mag q) := fun q => (mag_app hf q).mono (by norm_num) (by norm_num)
  have zero : App 9 32 0 0 0 := App.zero 9 32 le_rfl
  have one := App.one 9 32
  cases f with
  | matrix a b c d e f => cases h; exact ⟨num a, num b, num c, num d, num e, num f⟩
  | translate x y => cases h; exact ⟨one, zero, zero, one, num x, num _⟩
  | scale x y => cases h; exact ⟨num x, zero, zero, num _, zero, zero⟩
  | rotate a c =>
    have hs := sin_app hl (radians_app hf a)
    have hc := cos_app hl (radians_app hf a)
    rcases c with _ | ⟨x, y⟩
    · cases h
      exact ⟨hc.mono (by norm_num) (by norm_num), hs.mono (by norm_num) (by norm_num), hs.neg.mono (by norm_num) (by norm_num),
        hc.mono (by norm_num) (by norm_num), zero, zero⟩
    · cases h
      have h1 : App 6 0 (fl (1 - lib.cos (radiansF fl a))) (1 - Real.cos (radians a)) (2 + mag a / 50) := by
        have := (App.one 5 0).subr hc hf (by norm_num)
        rwa [show (1 : ℝ) + (1 + mag a / 50) = 2 + mag a / 50 by ring] at this
      have hx := mag_app hf x
      have hy := mag_app hf y
      have p1 := hx.mulr h1 hf (by norm_num)
      have p2 := (hy.mulr hs hf (by norm_num)).mono (l := 8) (m := 10) (by norm_num) (by norm_num)
      have p3 := (hx.neg.mulr hs hf (by norm_num)).mono (l := 8) (m := 10) (by norm_num) (by norm_num)
      have p4 := hy.mulr h1 hf (by norm_num)
      exact ⟨hc.mono (by norm_num) (by norm_num), hs.mono (by norm_num) (by norm_num), hs.neg.mono (by norm_num) (by norm_num),
        hc.mono (by norm_num) (by norm_num), (p1.addr p2 hf (by norm_num)).mono (by norm_num) (by norm_num),
        (p3.addr p4 hf (by norm_num)).mono (by norm_num) (by norm_num)⟩
  | skewX a =>
    simp only [Fn.size] at h
    split at h
    · rename_i hc
      cases h
      exact ⟨one, zero, (tan_app hl (radians_app hf a) hc.1 hc.2).mono (by norm_num) (by norm_num), one, zero, zero⟩
    · cases h
  | skewY a =>
    simp only [Fn.size] at h
    split at h
    · rename_i hc
      cases h
      exact ⟨one, (tan_app hl (radians_app hf a) hc.1 hc.2).mono (by norm_num) (by norm_num), zero, one, zero, zero⟩
    · cases h

theorem mapM_length {α β : Type*} {f : α → Option β} : ∀ {l : List α} {bs : List β}, l.mapM f = some bs → bs.length = l.length
  | [], bs, h => by cases h; rfl
  | a :: l, bs, h => by
    rw [List.mapM_cons] at h
    simp only [Option.pure_def, Option.bind_eq_bind, Option.bind_eq_some_iff] at h
    obtain ⟨B, -, bs', hbs, h⟩ := h
    cases h
    simp [mapM_length hbs]

/-- The product of bounds, like `evalAll`. -/
noncomputable def prod : List Transform → Transform
  | [] => .identity
  | [a] => a
  | a :: b :: l => a * prod (b :: l)

theorem all_app (hf : FloatRounding fl) (hl : FloatLib lib) : ∀ (a : Fn) (l : List Fn) (bs : List Transform),
    (a :: l).mapM Fn.size = some bs → l.length < 30 →
    TApp (12 * l.length + 9) (32 * (l.length + 1)) (evalAllF fl lib (a :: l)) (evalAll (a :: l)) (prod bs) ∧ bs.length = l.length + 1
  | a, [], bs, h, _ => by
    simp only [List.mapM_cons, List.mapM_nil, Option.pure_def, Option.bind_eq_bind, Option.bind_eq_some_iff, Option.bind_some] at h
    obtain ⟨B, hB, h⟩ := h
    cases h
    exact ⟨fn_app hf hl a hB, rfl⟩
  | a, b :: l, bs, h, hn => by
    rw [List.mapM_cons] at h
    simp only [Option.pure_def, Option.bind_eq_bind, Option.bind_eq_some_iff] at h
    obtain ⟨B, hB, bs', hbs, h⟩ := h
    cases h
    simp only [List.length_cons] at hn ⊢
    obtain ⟨h1, h2⟩ := all_app hf hl b l bs' hbs (by omega)
    match bs', h2 with
    | B' :: bs', h2 =>
      simp only [List.length_cons] at h2
      refine ⟨((fn_app hf hl a hB).mul h1 hf (by omega)).mono (by omega) (by omega), by simp only [List.length_cons]; omega⟩

theorem times_prod : ∀ (bs : List Transform), bs ≠ [] → ∀ s : Size, bs.foldl Size.times s = ⟨s.bound * prod bs, s.count + bs.length⟩
  | [b], _, s => rfl
  | b :: c :: bs, _, s => by
    rw [List.foldl_cons, times_prod (c :: bs) (by simp) (s.times b)]
    simp only [Size.times, prod, transform_assoc, List.length_cons, Size.mk.injEq, true_and]
    omega

/-- The computed transform is close to the exact one. -/
def Near (t' t : Transform) (s : Size) : Prop := TApp (12 * s.count) (32 * s.count) t' t s.bound

theorem Near.attr (hf : FloatRounding fl) (hl : FloatLib lib) {s s' : Size} (h : Near t' t s) {text : List Char}
    (hs : s.attr text = some s') (hn : s'.count ≤ 30) :
    ∃ u' u, parseTransformF fl lib text = some u' ∧ parseTransform text = some u ∧ Near (tmul fl t' u') (t * u) s' := by
  unfold Size.attr at hs
  rw [Option.bind_eq_some_iff] at hs
  obtain ⟨l, hc, hs⟩ := hs
  rw [Option.map_eq_some_iff] at hs
  obtain ⟨bs, hb, rfl⟩ := hs
  refine ⟨evalAllF fl lib l, evalAll l, by rw [parseTransformF, hc]; rfl, by rw [calls_eval, hc]; rfl, ?_⟩
  have hne := calls_ne hc
  match l with
  | a :: l =>
    have hlen : bs.length = l.length + 1 := by
      have := mapM_length hb
      simpa using this
    have hbs : bs ≠ [] := by rintro rfl; simp at hlen
    rw [times_prod bs hbs] at hn ⊢
    simp only at hn
    obtain ⟨h1, -⟩ := all_app hf hl a l bs hb (by omega)
    unfold Near
    simp only
    exact (h.mul h1 hf (by omega)).mono (by omega) (by omega)

end StepperPaths.Rounded.Acc
