import Verif.Proof.RoundedTransform
import Verif.Model.RoundedSvg

/-!
The points on a circle that are a given chord apart, `svg_path_parser.rs` 732-769, with rounding.
-/

namespace StepperPaths.Rounded.Acc
open Spec Coords

variable {fl : ℝ → ℝ} {k l n m : ℕ} {x' x X y' y Y : ℝ}

/-- Relative to another size. -/
theorem App.rel (h : App k n x' x X) (hY : |x| ≤ Y) (q : ℕ) (hq : X ≤ q * Y) (hm : 1 / 2 ^ m ≤ Y) : App (k * q) m x' x Y := by
  refine ⟨hY, h.err.trans ?_, .inl hm⟩
  have h1 : g k * X ≤ g k * (q * Y) := mul_le_mul_of_nonneg_left hq (g_nonneg k)
  have h2 : (q * g k) * Y ≤ g (k * q) * Y := mul_le_mul_of_nonneg_right (g_mul k q) ((abs_nonneg _).trans hY)
  linarith

theorem App.big (h : App k n x' x X) (hX : 1 ≤ X) : App k 0 x' x X := ⟨h.le, h.err, .inl (by simpa using hX)⟩

theorem App.floor' (h : App k n x' x X) (hX : 1 / 2 ^ m ≤ X) : App k m x' x X := ⟨h.le, h.err, .inl hX⟩

theorem g_small {k : ℕ} {c : ℝ} (h : (k : ℝ) ≤ c * 2 ^ 51) (hc : c ≤ 1) : g k ≤ c := by
  have := g_le (k := k) (by linarith)
  refine this.trans ?_
  rw [div_le_iff₀ (by positivity)]
  linarith

theorem g_half {k : ℕ} (h : k ≤ 2 ^ 50) : g k ≤ 1 / 2 := by
  have : (k : ℝ) ≤ 2 ^ 50 := by exact_mod_cast h
  exact g_small (by linarith) (by norm_num)

/-- The root of a number that is at least `μ²`. -/
theorem sqrt_near {M M' μ e : ℝ} (hμ : 0 < μ) (hM : μ ^ 2 ≤ M) (he : |M' - M| ≤ e) (hM' : 0 ≤ M') : |√M' - √M| ≤ e / μ := by
  have h1 : μ ≤ √M := Real.le_sqrt_of_sq_le hM
  have h2 : 0 ≤ √M' := Real.sqrt_nonneg _
  have e1 : (√M' - √M) * (√M' + √M) = M' - M := by
    have a := Real.mul_self_sqrt hM'
    have b := Real.mul_self_sqrt (le_trans (sq_nonneg μ) hM)
    linarith
  rw [le_div_iff₀ hμ]
  calc |√M' - √M| * μ ≤ |√M' - √M| * (√M' + √M) := by gcongr; linarith
    _ = |M' - M| := by rw [← e1, abs_mul, abs_of_pos (by linarith : 0 < √M' + √M)]
    _ ≤ e := he

variable {K h : ℕ} {R' R dx' dx dy' dy D : ℝ}

/-- What is known of a chord: the computed radius and differences are close to the exact ones. -/
structure Chord (K h : ℕ) (R' R dx' dx dy' dy D : ℝ) : Prop where
  radius : App K 60 R' R R
  cx : App K 60 dx' dx D
  cy : App K 60 dy' dy D
  pos : 0 < R
  big : R ≤ 2 ^ 60
  low : 1 / 2 ^ 60 ≤ R
  long : 1 / 2 ^ 60 ≤ D
  len : D ^ 2 = dx ^ 2 + dy ^ 2
  short : D ^ 2 * h ^ 2 ≤ 4 * R ^ 2 * (h ^ 2 - 1)
  one : 1 ≤ K
  hh : 1 ≤ h
  few : K * h ≤ 2 ^ 20
  tight : h ≤ 2 ^ 10

/-- A computed point close to an exact one. -/
structure PApp (k : ℕ) (R : ℝ) (p' p : Vec) : Prop where
  x : App k 60 p'.x p.x (7 * R)
  y : App k 60 p'.y p.y (7 * R)

theorem Chord.le_two (hc : Chord K h R' R dx' dx dy' dy D) : D ≤ 2 * R := by
  have h1r : (1 : ℝ) ≤ h := by exact_mod_cast hc.hh
  have h3 : D ^ 2 * h ^ 2 ≤ (2 * R) ^ 2 * h ^ 2 := by nlinarith [sq_nonneg R, hc.short]
  have h4 : D ^ 2 ≤ (2 * R) ^ 2 := le_of_mul_le_mul_right h3 (by positivity)
  exact le_of_sq_le_sq h4 (by linarith [hc.pos])

/-- The slope of the chord, and the larger of the differences relative to itself. -/
theorem slope_near (hf : FloatRounding fl) (hc : Chord K h R' R dx' dx dy' dy D) (hb : |dy'| ≤ |dx'|) :
    ∃ s, s * dx = dy ∧ s ^ 2 ≤ 51 / 49 ∧ dx ≠ 0 ∧ App (2 * K) 61 dx' dx |dx| ∧ App (5 * K + 1) 0 (fl (dy' / dx')) s (10 / 7) := by
  have DR := hc.le_two
  obtain ⟨hR, hdx, hdy, R0, R60, Rlow, Dlow, hD, hs, K1, h1, few, -⟩ := hc
  have Kb : K ≤ 2 ^ 20 := le_trans (Nat.le_mul_of_pos_right K h1) few
  have Kr : (K : ℝ) ≤ 2 ^ 20 := by exact_mod_cast Kb
  have D0 : 0 < D := lt_of_lt_of_le (by positivity) Dlow
  have gK : g K ≤ 1 / 2 ^ 20 := g_small (by norm_num at Kr ⊢; linarith) (by norm_num)
  have h1r : (1 : ℝ) ≤ h := by exact_mod_cast h1
  -- the chord is flat
  have flat : 7 / 10 * D ≤ |dx| := by
    by_contra hlt
    push Not at hlt
    have e1 : |dx'| ≤ |dx| + g K * D := by
      have := abs_add_le (dx' - dx) dx
      rw [sub_add_cancel] at this
      linarith [hdx.err]
    have e2 : |dy| ≤ |dy'| + g K * D := by
      have := abs_sub (dy' : ℝ) (dy' - dy)
      rw [sub_sub_cancel] at this
      linarith [hdy.err]
    have e3 : g K * D ≤ 1 / 2 ^ 20 * D := by gcongr
    have e4 : |dy| ≤ 7001 / 10000 * D := by
      norm_num at e3 ⊢
      linarith
    have e5 : dy ^ 2 ≤ (7001 / 10000 * D) ^ 2 := by rw [← sq_abs]; gcongr
    have e6 : dx ^ 2 ≤ (7 / 10 * D) ^ 2 := by rw [← sq_abs]; gcongr
    nlinarith
  have dx0 : 0 < |dx| := lt_of_lt_of_le (by positivity) flat
  have dxne : dx ≠ 0 := abs_pos.1 dx0
  have dxD : |dx| ≤ D := hdx.le
  have hx := hdx.rel (Y := |dx|) le_rfl 2 (by push_cast; linarith) (m := 61)
    (by
      have : (1 : ℝ) / 2 ^ 61 = 1 / 2 * (1 / 2 ^ 60) := by norm_num
      linarith)
  have hxi := hx.inv dxne (g_half (by omega)) (m := 61)
    (by
      have : (2 : ℝ) ^ 61 = 2 * 2 ^ 60 := by norm_num
      linarith)
  -- the slope
  obtain ⟨s, hsl⟩ : ∃ s, s = dy / dx := ⟨_, rfl⟩
  have es : dy * (1 / dx) = s := by rw [hsl]; ring
  have hsdx : s * dx = dy := by rw [hsl]; field_simp
  have s2 : s ^ 2 ≤ 51 / 49 := by
    have e1 : dx ^ 2 * (1 + s ^ 2) = D ^ 2 := by rw [hD, ← hsdx]; ring
    have e2 : (7 / 10 * D) ^ 2 ≤ dx ^ 2 := by rw [← sq_abs dx]; gcongr
    have e3 : dx ^ 2 * (1 + s ^ 2) ≤ dx ^ 2 * (100 / 49) := by rw [e1]; linarith
    have := le_of_mul_le_mul_left e3 (by positivity)
    linarith
  have hk0 := hdy.mulr hxi hf (by norm_num)
  rw [es, mul_one_div] at hk0
  have hk := (hk0.wide (Y := 10 / 7) (by
    rw [mul_one_div, div_le_iff₀ dx0]; linarith)).big (by norm_num)
  exact ⟨s, hsdx, s2, dxne, hx.mono (by omega) le_rfl, hk.mono (by omega) le_rfl⟩

/-- The squared height of the line above the center. -/
theorem height_near (hf : FloatRounding fl) (hc : Chord K h R' R dx' dx dy' dy D) {s k' : ℝ} (hs : s * dx = dy) (s2 : s ^ 2 ≤ 51 / 49)
    (hx : App (2 * K) 61 dx' dx |dx|) (hk : App (5 * K + 1) 0 k' s (10 / 7)) :
    let c' := fl (fl (fl (R' * R') / fl (R' * R')) + fl (k' * k'))
    App (56 * K) 0 c' (1 + s ^ 2) |1 + s ^ 2| ∧
    App (2000 * K) 122 (fl (fl (fl (fl (fl (c' * dx') * dx') / 4) - fl (R' * R')) / fl (fl (fl (k' * k') / c') - 1)))
      ((R ^ 2 - D ^ 2 / 4) * (1 + s ^ 2)) (6 * R ^ 2) := by
  have DR := hc.le_two
  obtain ⟨hR, hdx, hdy, R0, R60, Rlow, Dlow, hD, hsh, K1, h1, few, -⟩ := hc
  have Kb : K ≤ 2 ^ 20 := le_trans (Nat.le_mul_of_pos_right K h1) few
  have D0 : 0 < D := lt_of_lt_of_le (by positivity) Dlow
  have c1 : 1 ≤ 1 + s ^ 2 := by nlinarith [sq_nonneg s]
  have ca : |1 + s ^ 2| = 1 + s ^ 2 := abs_of_pos (by linarith)
  have hR2 := hR.mulr hR hf (by norm_num)
  have hne : fl (R' * R') ≠ 0 := by
    intro h0
    have := hR2.err
    rw [h0, zero_sub, abs_neg, abs_of_pos (by positivity)] at this
    have g1 : g (K + K + 1) ≤ 1 / 2 := g_half (by omega)
    nlinarith [mul_pos R0 R0]
  intro c'
  have hc' : c' = fl (1 + fl (k' * k')) := by
    show fl (fl (fl (R' * R') / fl (R' * R')) + fl (k' * k')) = _
    rw [div_self hne, show fl 1 = 1 by simpa using hf.int 1 (by norm_num)]
  have hkk := hk.mulr hk hf (by norm_num)
  have hcc := ((App.one _ _).addr hkk hf (by norm_num)).rel (Y := |1 + s ^ 2|) (by rw [← pow_two]) 4 (by rw [ca]; push_cast; nlinarith) (m := 0)
    (by rw [ca]; norm_num; nlinarith [sq_nonneg s])
  rw [← hc', ← pow_two s] at hcc
  have hc1 := hcc.mono (l := 56 * K) (m := 0) (by omega) le_rfl
  refine ⟨hc1, ?_⟩
  -- the numerator
  have e1 : (1 + s ^ 2) * dx * dx = D ^ 2 := by rw [hD, ← hs]; ring
  have e2 : |1 + s ^ 2| * |dx| * |dx| = D ^ 2 := by rw [ca, mul_assoc, abs_mul_abs_self, ← e1]; ring
  have hn1 := (hc1.mulr hx hf (by norm_num)).mulr hx hf (by norm_num)
  rw [e1, e2] at hn1
  have hn2 := (hn1.divNat (b := 4) (m := 2) (by norm_num) (by norm_num)).rnd hf (by norm_num)
  have hn3 := (hn2.mono (l := 64 * K) (m := 124) (by omega) (by norm_num)).subr
    (hR2.mono (l := 64 * K) (m := 124) (by omega) (by norm_num)) hf (by norm_num)
  have hn4 := hn3.wide (Y := 2 * R ^ 2) (by push_cast; nlinarith)
  -- the denominator
  have hci := hc1.inv (by linarith : (1 + s ^ 2 : ℝ) ≠ 0) (g_half (by omega)) (m := 2) (by rw [ca]; norm_num; linarith)
  have hd1 := ((hkk.mulr hci hf (by norm_num)).wide (Y := 100 / 49) (by
    rw [mul_one_div, ca, div_le_iff₀ (by linarith)]; nlinarith)).big (by norm_num)
  have hd2 := hd1.subr (App.one _ _) hf (by norm_num)
  have hc0 : (1 + s ^ 2 : ℝ) ≠ 0 := by linarith
  have e3 : s * s * (1 / (1 + s ^ 2)) - 1 = -(1 / (1 + s ^ 2)) := by field_simp; ring
  have hda : |-(1 / (1 + s ^ 2))| = 1 / (1 + s ^ 2) := by rw [abs_neg, abs_of_pos (by positivity)]
  rw [e3] at hd2
  have low : 49 / 100 ≤ 1 / (1 + s ^ 2) := by rw [le_div_iff₀ (by linarith)]; linarith
  have hd3 := hd2.rel (Y := |-(1 / (1 + s ^ 2))|) le_rfl 7 (by rw [hda]; push_cast; linarith) (m := 2) (by rw [hda]; norm_num at low ⊢; linarith)
  have hd4 := hd3.inv (by rw [neg_ne_zero]; positivity) (g_half (by omega)) (m := 1) (by
    rw [hda, div_le_iff₀ (by linarith)]; linarith)
  have hm := hn4.mulr hd4 hf (by norm_num)
  rw [mul_one_div, mul_one_div, hda] at hm
  have e4 : (D ^ 2 / (4 : ℕ) - R * R) * (1 / -(1 / (1 + s ^ 2))) = (R ^ 2 - D ^ 2 / 4) * (1 + s ^ 2) := by
    push_cast; field_simp; ring
  rw [e4, one_div_one_div, Nat.cast_ofNat] at hm
  have hm1 := hm.wide (Y := 6 * R ^ 2) (by nlinarith)
  exact (hm1.floor' (m := 122) (by
    have : (1 / 2 ^ 60 : ℝ) ^ 2 ≤ R ^ 2 := by gcongr
    have e : (1 : ℝ) / 2 ^ 122 = 1 / 4 * (1 / 2 ^ 60) ^ 2 := by norm_num
    rw [e]; linarith)).mono (by omega) le_rfl

/-- The line above the center. -/
theorem root_near (hf : FloatRounding fl) (hc : Chord K h R' R dx' dx dy' dy D) {s m2 : ℝ} (s2 : s ^ 2 ≤ 51 / 49)
    (hm : App (2000 * K) 122 m2 ((R ^ 2 - D ^ 2 / 4) * (1 + s ^ 2)) (6 * R ^ 2)) :
    0 ≤ m2 ∧ App (12000 * (K * h) + 1) 60 (fl √m2) √((R ^ 2 - D ^ 2 / 4) * (1 + s ^ 2)) (10 / 7 * R) := by
  obtain ⟨-, -, -, R0, R60, Rlow, Dlow, hD, hsh, K1, h1, few, hh⟩ := hc
  have h0 : (0 : ℝ) < h := by exact_mod_cast h1
  have fewr : (K : ℝ) * h ≤ 2 ^ 20 := by exact_mod_cast few
  have hhr : (h : ℝ) ≤ 2 ^ 10 := by exact_mod_cast hh
  have K0 : (0 : ℝ) ≤ K := by positivity
  have Kb : K ≤ 2 ^ 20 := le_trans (Nat.le_mul_of_pos_right K h1) few
  have low : (R / h) ^ 2 ≤ R ^ 2 - D ^ 2 / 4 := by
    rw [div_pow, div_le_iff₀ (by positivity)]
    linarith
  have low' : (R / h) ^ 2 ≤ (R ^ 2 - D ^ 2 / 4) * (1 + s ^ 2) := by nlinarith [sq_nonneg s, sq_nonneg (R / h)]
  have he : |m2 - (R ^ 2 - D ^ 2 / 4) * (1 + s ^ 2)| ≤ g (2000 * K) * (6 * R ^ 2) := hm.err
  have up : (R ^ 2 - D ^ 2 / 4) * (1 + s ^ 2) ≤ (10 / 7 * R) ^ 2 := by
    have : R ^ 2 - D ^ 2 / 4 ≤ R ^ 2 := by nlinarith [sq_nonneg D]
    nlinarith [sq_nonneg s, sq_nonneg (R / h)]
  have m0 : 0 ≤ m2 := by
    have hg : g (2000 * K) ≤ 2 * (2000 * K : ℕ) / 2 ^ 52 := g_le (by
      have : 2000 * K ≤ 2 ^ 52 := by omega
      exact_mod_cast this)
    push_cast at hg
    have e1 : g (2000 * K) * (6 * R ^ 2) ≤ (R / h) ^ 2 := by
      have e2 : 24000 * (K * h) * h ≤ (2 : ℝ) ^ 52 := by
        calc 24000 * (K * h) * h ≤ 24000 * (2 : ℝ) ^ 20 * 2 ^ 10 := by gcongr
          _ ≤ _ := by norm_num
      rw [div_pow, le_div_iff₀ (by positivity)]
      calc g (2000 * K) * (6 * R ^ 2) * h ^ 2 ≤ 2 * (2000 * K) / 2 ^ 52 * (6 * R ^ 2) * h ^ 2 := by gcongr
        _ = 24000 * (K * h) * h / 2 ^ 52 * R ^ 2 := by ring
        _ ≤ 2 ^ 52 / 2 ^ 52 * R ^ 2 := by gcongr
        _ = R ^ 2 := by norm_num
    have := neg_abs_le (m2 - (R ^ 2 - D ^ 2 / 4) * (1 + s ^ 2))
    linarith
  refine ⟨m0, App.rnd ⟨?_, ?_, .inl (by linarith)⟩ hf (by norm_num)⟩
  · rw [abs_of_nonneg (Real.sqrt_nonneg _)]
    exact Real.sqrt_le_iff.2 ⟨by positivity, up⟩
  · refine (sqrt_near (by positivity) low' he m0).trans ?_
    have e1 : g (2000 * K) * (6 * R ^ 2) / (R / h) = (6 * h : ℕ) * g (2000 * K) * R := by
      push_cast; field_simp
    have e2 : 2000 * K * (6 * h) = 12000 * (K * h) := by ring
    have := g_mul (2000 * K) (6 * h)
    rw [e2] at this
    rw [e1]
    calc (6 * h : ℕ) * g (2000 * K) * R ≤ g (12000 * (K * h)) * R := by gcongr
      _ ≤ g (12000 * (K * h)) * (10 / 7 * R) := by
        gcongr
        · exact g_nonneg _
        · linarith

/-- The points on the circle for a flat chord. -/
theorem flat_near (hf : FloatRounding fl) (hc : Chord K h R' R dx' dx dy' dy D)
    (hb : |dy'| ≤ |dx'|) : ∃ p1' p2' p1 p2, chordFlatF fl R' R' dx' dy' = some (p1', p2') ∧
      PApp (12200 * (K * h)) R p1' p1 ∧ PApp (12200 * (K * h)) R p2' p2 ∧
      p1.x ^ 2 + p1.y ^ 2 = R ^ 2 ∧ p2.x ^ 2 + p2.y ^ 2 = R ^ 2 ∧ p2.x - p1.x = dx ∧ p2.y - p1.y = dy := by
  obtain ⟨s, hs, s2, -, hx, hk⟩ := slope_near hf hc hb
  obtain ⟨hc1, hm2⟩ := height_near hf hc hs s2 hx hk
  obtain ⟨m0, hm⟩ := root_near hf hc s2 hm2
  have DR := hc.le_two
  have PK : K ≤ K * h := Nat.le_mul_of_pos_right K hc.hh
  have P20 := hc.few
  have K1 := hc.one
  have R0 := hc.pos
  have Rlow := hc.low
  have low : (R / h) ^ 2 ≤ R ^ 2 - D ^ 2 / 4 := by
    have h0 : (0 : ℝ) < h := by exact_mod_cast hc.hh
    rw [div_pow, div_le_iff₀ (by positivity)]
    linarith [hc.short]
  have hD := hc.len
  have hcx := hc.cx
  generalize K * h = P at *
  unfold chordFlatF
  simp only [if_neg (not_lt.2 m0)]
  generalize fl √(fl (fl (fl (fl (fl (fl (fl (fl (R' * R') / fl (R' * R')) + fl (fl (dy' / dx') * fl (dy' / dx'))) * dx') * dx') / 4) -
    fl (R' * R')) / fl (fl (fl (fl (dy' / dx') * fl (dy' / dx')) /
    fl (fl (fl (R' * R') / fl (R' * R')) + fl (fl (dy' / dx') * fl (dy' / dx')))) - 1))) = m' at *
  clear hm2 m0
  generalize fl (fl (fl (R' * R') / fl (R' * R')) + fl (fl (dy' / dx') * fl (dy' / dx'))) = c' at *
  generalize fl (dy' / dx') = k' at *
  have c1 : 1 ≤ 1 + s ^ 2 := by nlinarith [sq_nonneg s]
  have ca : |1 + s ^ 2| = 1 + s ^ 2 := abs_of_pos (by linarith)
  have hsq : √((R ^ 2 - D ^ 2 / 4) * (1 + s ^ 2)) ^ 2 = (R ^ 2 - D ^ 2 / 4) * (1 + s ^ 2) :=
    Real.sq_sqrt (mul_nonneg ((sq_nonneg _).trans low) (by linarith))
  generalize √((R ^ 2 - D ^ 2 / 4) * (1 + s ^ 2)) = m at *
  have hci := hc1.inv (by linarith : (1 + s ^ 2 : ℝ) ≠ 0) (g_half (by omega)) (m := 2) (by rw [ca]; norm_num; linarith)
  have hmp := (hk.neg.mulr hm hf (by norm_num)).mulr hci hf (by norm_num)
  rw [mul_one_div, mul_one_div] at hmp
  have hmp1 := ((hmp.wide (Y := 21 / 10 * R) (by
    rw [mul_one_div, ca, div_le_iff₀ (by linarith)]; nlinarith)).floor' (m := 60) (by linarith)).mono (l := 12130 * P) (by omega) le_rfl
  have hh := (((hcx.divNat (b := 2) (m := 1) (by norm_num) (by norm_num)).rnd hf (by norm_num)).wide (Y := R) (by
    push_cast; linarith)).floor' (m := 60) Rlow |>.mono (l := 12130 * P) (by omega) le_rfl
  rw [Nat.cast_ofNat] at hh
  obtain ⟨mp, emp⟩ : ∃ mp, mp = -s * m / (1 + s ^ 2) := ⟨_, rfl⟩
  rw [← emp] at hmp1
  have hmp' : (1 + s ^ 2) * mp = -s * m := by rw [emp]; field_simp
  have hx1 := (hmp1.subr hh hf (by norm_num)).wide (Y := 31 / 10 * R) (by linarith)
  have hx2 := (hmp1.addr hh hf (by norm_num)).wide (Y := 31 / 10 * R) (by linarith)
  have hy : ∀ {x' x : ℝ}, App (12130 * P + 1) 60 x' x (31 / 10 * R) → App (12200 * P) 60 (fl (fl (k' * x') + m')) (s * x + m) (7 * R) := by
    intro x' x hx
    have h1 := ((hk.mulr hx hf (by norm_num)).mono (l := 12190 * P) (m := 60) (by omega) (by norm_num)).addr
      (hm.mono (l := 12190 * P) (m := 60) (by omega) le_rfl) hf (by norm_num)
    exact (h1.wide (by linarith)).mono (by omega) le_rfl
  have cD : (1 + s ^ 2) * dx ^ 2 = D ^ 2 := by rw [hD, ← hs]; ring
  have key : ∀ σ : ℝ, σ ^ 2 = 1 → (mp + σ * (dx / 2)) ^ 2 + (s * (mp + σ * (dx / 2)) + m) ^ 2 = R ^ 2 := by
    intro σ hσ
    have h0 : (1 + s ^ 2 : ℝ) ≠ 0 := by linarith
    apply mul_left_cancel₀ h0
    linear_combination (-s * m + 2 * s * m + (1 + s ^ 2) * (mp + σ * dx)) * hmp' + hsq + (1 + s ^ 2) * σ ^ 2 / 4 * cD + (1 + s ^ 2) * D ^ 2 / 4 * hσ
  refine ⟨_, _, ⟨mp - dx / 2, s * (mp - dx / 2) + m⟩, ⟨mp + dx / 2, s * (mp + dx / 2) + m⟩, rfl,
    ⟨(hx1.mono (by omega) le_rfl).wide (by linarith), hy hx1⟩, ⟨(hx2.mono (by omega) le_rfl).wide (by linarith), hy hx2⟩, ?_, ?_, ?_, ?_⟩
  · have := key (-1) (by norm_num)
    simp only
    rw [← this]; ring
  · have := key 1 (by norm_num)
    simp only
    rw [← this]; ring
  · simp only; ring
  · simp only; rw [← hs]; ring

theorem steep_swap (fl : ℝ → ℝ) (R dx dy : ℝ) : chordSteepF fl R R dx dy =
    (chordFlatF fl R R dy dx).map fun p => (⟨p.1.y, p.1.x⟩, ⟨p.2.y, p.2.x⟩) := by
  unfold chordSteepF chordFlatF
  simp only
  split <;> rfl

theorem Chord.swap (hc : Chord K h R' R dx' dx dy' dy D) : Chord K h R' R dy' dy dx' dx D :=
  ⟨hc.radius, hc.cy, hc.cx, hc.pos, hc.big, hc.low, hc.long, by rw [hc.len, add_comm], hc.short, hc.one, hc.hh, hc.few, hc.tight⟩

/-- The points on the circle. -/
theorem chord_near (hf : FloatRounding fl) (hc : Chord K h R' R dx' dx dy' dy D) :
    ∃ p1' p2' p1 p2, chordF fl R' R' dx' dy' = some (p1', p2') ∧
      PApp (12200 * (K * h)) R p1' p1 ∧ PApp (12200 * (K * h)) R p2' p2 ∧
      p1.x ^ 2 + p1.y ^ 2 = R ^ 2 ∧ p2.x ^ 2 + p2.y ^ 2 = R ^ 2 ∧ p2.x - p1.x = dx ∧ p2.y - p1.y = dy := by
  unfold chordF
  split
  · next hb => exact flat_near hf hc hb.le
  · next hb =>
    obtain ⟨p1', p2', p1, p2, h1, h2, h3, h4, h5, h6, h7⟩ := flat_near hf hc.swap (not_lt.1 hb)
    refine ⟨⟨p1'.y, p1'.x⟩, ⟨p2'.y, p2'.x⟩, ⟨p1.y, p1.x⟩, ⟨p2.y, p2.x⟩, ?_, ⟨h2.y, h2.x⟩, ⟨h3.y, h3.x⟩, ?_, ?_, h7, h6⟩
    · rw [steep_swap, h1]; rfl
    · rw [← h4]; ring
    · rw [← h5]; ring

end StepperPaths.Rounded.Acc
