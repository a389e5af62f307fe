import Verif.Proof.CommandNumbers

/-! The two programs from their command lines. -/

namespace StepperPaths.Cli
open Spec.Cli Svg Control Config Program Raster

/-! ### Single options -/

theorem floatOpt_none {m : Matches} {name : String} {bad : Message} (h : m.str name = none) :
    floatOpt m name bad = .ok none := by simp [floatOpt, h]

theorem floatOpt_good {m : Matches} {name : String} {bad : Message} (h : IfGiven FloatText (m.str name)) :
    ∃ v, floatOpt m name bad = .ok v := by
  unfold floatOpt
  cases hs : m.str name with
  | none => exact ⟨_, rfl⟩
  | some s =>
    obtain ⟨v, hv⟩ := (parseF64_some s).2 (h s hs)
    exact ⟨some v, by simp [hv]⟩

theorem floatOpt_ok {m : Matches} {name : String} {bad : Message} {v : Option F64} (h : floatOpt m name bad = .ok v) :
    IfGiven FloatText (m.str name) := by
  intro s hs
  unfold floatOpt at h
  rw [hs] at h
  rw [← parseF64_some]
  cases hp : parseF64 s with
  | none => simp [hp] at h
  | some v => exact ⟨v, rfl⟩

theorem floatOpt_error {m : Matches} {name : String} {bad msg : Message} (h : floatOpt m name bad = .error msg) :
    msg = bad := by
  unfold floatOpt at h
  split at h
  · simp at h
  · split at h <;> simp_all

theorem floatOpt_value {m : Matches} {name : String} {bad : Message} {q : Option ℚ} (h : Float (m.str name) q) :
    ∃ v, floatOpt m name bad = .ok v ∧ finite v = some q := by
  unfold floatOpt
  generalize m.str name = o at h
  cases h with
  | none => exact ⟨none, rfl, rfl⟩
  | some n hn => exact ⟨some (.finite n.value), by simp [parseF64_text hn], rfl⟩

theorem intOpt_good {m : Matches} {name : String} {bad range : Message} {P : ℤ → Bool}
    (h : IfGiven (fun s => ∃ n, IntText s n ∧ P n = true) (m.str name)) : ∃ v, intOpt m name bad P range = .ok v := by
  unfold intOpt
  cases hs : m.str name with
  | none => exact ⟨_, rfl⟩
  | some s =>
    obtain ⟨n, hn, hp⟩ := h s hs
    exact ⟨some n, by simp [(parseI32_iff s n).2 hn, hp]⟩

theorem intOpt_ok {m : Matches} {name : String} {bad range : Message} {P : ℤ → Bool} {v : Option ℤ}
    (h : intOpt m name bad P range = .ok v) : IfGiven (fun s => ∃ n, IntText s n ∧ P n = true) (m.str name) := by
  intro s hs
  unfold intOpt at h
  rw [hs] at h
  cases hp : parseI32 s with
  | none => simp [hp] at h
  | some n =>
    simp only [hp] at h
    split at h
    · rename_i hP
      exact ⟨n, (parseI32_iff s n).1 hp, hP⟩
    · simp at h

theorem intOpt_error {m : Matches} {name : String} {bad range msg : Message} {P : ℤ → Bool}
    (h : intOpt m name bad P range = .error msg) : msg = bad ∨ msg = range := by
  unfold intOpt at h
  split at h
  · simp at h
  · split at h
    · split at h <;> simp_all
    · simp_all

theorem intOpt_value {m : Matches} {name : String} {bad range : Message} {P : ℤ → Bool} {n : Option ℤ}
    (h : Integer (m.str name) n) (hP : ∀ k ∈ n, P k = true) : intOpt m name bad P range = .ok n := by
  unfold intOpt
  generalize m.str name = o at h
  cases h with
  | none => rfl
  | some s n hn => simp [(parseI32_iff s n).2 hn, hP n rfl]

/-! ### All numbers -/

theorem svgNumbers_ok {l : Line} : (∃ o, svgNumbers (lineMatches l) = .ok o) ↔ SvgGood l := by
  have str : ∀ word : String, 2 ≤ word.toList.length → word.toList ≠ ['h', 'e', 'l', 'p'] →
      (lineMatches l).str word = l.value word := line_str l
  constructor
  · rintro ⟨o, h⟩
    simp only [svgNumbers, bind, Except.bind] at h
    split at h
    · simp at h
    rename_i v1 h1
    split at h
    · simp at h
    rename_i v2 h2
    split at h
    · simp at h
    rename_i v3 h3
    split at h
    · simp at h
    rename_i v4 h4
    split at h
    · simp at h
    rename_i v5 h5
    have g1 := floatOpt_ok h1
    have g2 := floatOpt_ok h2
    have g3 := floatOpt_ok h3
    have g4 := intOpt_ok h4
    have g5 := intOpt_ok h5
    rw [str _ (by decide) (by decide)] at g1 g2 g3 g4 g5
    exact ⟨g1, g2, g3, by simpa using g4, by simpa using g5⟩
  · intro h
    obtain ⟨v1, h1⟩ := floatOpt_good (m := lineMatches l) (bad := .badVMax) (name := "v-max")
      (by rw [str _ (by decide) (by decide)]; exact h.vMax)
    obtain ⟨v2, h2⟩ := floatOpt_good (m := lineMatches l) (bad := .badAMax) (name := "a-max")
      (by rw [str _ (by decide) (by decide)]; exact h.aMax)
    obtain ⟨v3, h3⟩ := floatOpt_good (m := lineMatches l) (bad := .badSpeed) (name := "draw-speed")
      (by rw [str _ (by decide) (by decide)]; exact h.speed)
    obtain ⟨v4, h4⟩ := intOpt_good (m := lineMatches l) (bad := .badRepeat) (name := "repeat") (range := .repeatRange)
      (P := fun n => 1 ≤ n) (by rw [str _ (by decide) (by decide)]; simpa using h.repeats)
    obtain ⟨v5, h5⟩ := intOpt_good (m := lineMatches l) (bad := .badIntensity) (name := "intensity")
      (range := .intensityRange) (P := fun n => 0 ≤ n ∧ n ≤ 100)
      (by rw [str _ (by decide) (by decide)]; simpa using h.intensity)
    exact ⟨⟨v1, v2, v3, v4, v5⟩, by simp only [svgNumbers, h1, h2, h3, h4, h5]; rfl⟩

theorem svgNumbers_value {l : Line} {vMax aMax speed : Option ℚ} {n p : Option ℤ} (h1 : Float (l.value "v-max") vMax)
    (h2 : Float (l.value "a-max") aMax) (h3 : Float (l.value "draw-speed") speed) (h4 : Integer (l.value "repeat") n)
    (h5 : Integer (l.value "intensity") p) (hn : ∀ k ∈ n, 1 ≤ k) (hp : ∀ k ∈ p, 0 ≤ k ∧ k ≤ 100) :
    ∃ o, svgNumbers (lineMatches l) = .ok o ∧
      o.options = some ⟨vMax.map (↑), aMax.map (↑), speed.map (↑), n, p⟩ := by
  have str : ∀ word : String, 2 ≤ word.toList.length → word.toList ≠ ['h', 'e', 'l', 'p'] →
      (lineMatches l).str word = l.value word := line_str l
  rw [← str _ (by decide) (by decide)] at h1 h2 h3 h4 h5
  obtain ⟨v1, e1, f1⟩ := floatOpt_value (bad := .badVMax) h1
  obtain ⟨v2, e2, f2⟩ := floatOpt_value (bad := .badAMax) h2
  obtain ⟨v3, e3, f3⟩ := floatOpt_value (bad := .badSpeed) h3
  have e4 := intOpt_value (bad := .badRepeat) (range := .repeatRange) (P := fun n => 1 ≤ n) h4 (by simpa using hn)
  have e5 := intOpt_value (bad := .badIntensity) (range := .intensityRange) (P := fun n => 0 ≤ n ∧ n ≤ 100) h5
    (by simpa using hp)
  refine ⟨⟨v1, v2, v3, n, p⟩, by simp only [svgNumbers, e1, e2, e3, e4, e5]; rfl, ?_⟩
  simp [SvgNumbers.options, f1, f2, f3]

/-- The messages about numbers. -/
def Message.AboutNumber (m : Message) : Prop :=
  m ∈ [Message.badVMax, .badAMax, .badSpeed, .badRepeat, .repeatRange, .badIntensity, .intensityRange, .badWidth,
    .badHeight, .badSpot]

theorem svgNumbers_error {m : Matches} {msg : Message} (h : svgNumbers m = .error msg) : msg.AboutNumber := by
  simp only [svgNumbers, bind, Except.bind] at h
  unfold Message.AboutNumber
  split at h
  · rename_i h1
    simp only [Except.error.injEq] at h
    rw [← h, floatOpt_error h1]; decide
  split at h
  · rename_i h1
    simp only [Except.error.injEq] at h
    rw [← h, floatOpt_error h1]; decide
  split at h
  · rename_i h1
    simp only [Except.error.injEq] at h
    rw [← h, floatOpt_error h1]; decide
  split at h
  · rename_i h1
    simp only [Except.error.injEq] at h
    rw [← h]
    rcases intOpt_error h1 with e | e <;> rw [e] <;> decide
  split at h
  · rename_i h1
    simp only [Except.error.injEq] at h
    rw [← h]
    rcases intOpt_error h1 with e | e <;> rw [e] <;> decide
  simp [pure, Except.pure] at h

theorem rasterNumbers_ok {l : Line} : (∃ o, rasterNumbers (lineMatches l) = .ok o) ↔ RasterGood l := by
  have str : ∀ word : String, 2 ≤ word.toList.length → word.toList ≠ ['h', 'e', 'l', 'p'] →
      (lineMatches l).str word = l.value word := line_str l
  constructor
  · rintro ⟨o, h⟩
    simp only [rasterNumbers, bind, Except.bind] at h
    split at h
    · simp at h
    rename_i v1 h1
    split at h
    · simp at h
    rename_i v2 h2
    split at h
    · simp at h
    rename_i v3 h3
    split at h
    · simp at h
    rename_i v4 h4
    split at h
    · simp at h
    rename_i v5 h5
    split at h
    · simp at h
    rename_i v6 h6
    split at h
    · simp at h
    rename_i v7 h7
    have g1 := floatOpt_ok h1
    have g2 := floatOpt_ok h2
    have g3 := floatOpt_ok h3
    have g4 := intOpt_ok h4
    have g5 := floatOpt_ok h5
    have g6 := floatOpt_ok h6
    have g7 := floatOpt_ok h7
    rw [str _ (by decide) (by decide)] at g1 g2 g3 g4 g5 g6 g7
    exact ⟨g1, g2, g3, by simpa using g4, g5, g6, g7⟩
  · intro h
    obtain ⟨v1, h1⟩ := floatOpt_good (m := lineMatches l) (bad := .badVMax) (name := "v-max")
      (by rw [str _ (by decide) (by decide)]; exact h.vMax)
    obtain ⟨v2, h2⟩ := floatOpt_good (m := lineMatches l) (bad := .badAMax) (name := "a-max")
      (by rw [str _ (by decide) (by decide)]; exact h.aMax)
    obtain ⟨v3, h3⟩ := floatOpt_good (m := lineMatches l) (bad := .badSpeed) (name := "draw-speed")
      (by rw [str _ (by decide) (by decide)]; exact h.speed)
    obtain ⟨v4, h4⟩ := intOpt_good (m := lineMatches l) (bad := .badIntensity) (name := "intensity")
      (range := .intensityRange) (P := fun n => 0 ≤ n ∧ n ≤ 100)
      (by rw [str _ (by decide) (by decide)]; simpa using h.intensity)
    obtain ⟨v5, h5⟩ := floatOpt_good (m := lineMatches l) (bad := .badWidth) (name := "width")
      (by rw [str _ (by decide) (by decide)]; exact h.width)
    obtain ⟨v6, h6⟩ := floatOpt_good (m := lineMatches l) (bad := .badHeight) (name := "height")
      (by rw [str _ (by decide) (by decide)]; exact h.height)
    obtain ⟨v7, h7⟩ := floatOpt_good (m := lineMatches l) (bad := .badSpot) (name := "spot-diam")
      (by rw [str _ (by decide) (by decide)]; exact h.spot)
    exact ⟨⟨v1, v2, v3, v4, v5, v6, v7⟩, by simp only [rasterNumbers, h1, h2, h3, h4, h5, h6, h7]; rfl⟩

theorem rasterNumbers_value {l : Line} {vMax aMax speed width height spot : Option ℚ} {p : Option ℤ}
    (h1 : Float (l.value "v-max") vMax) (h2 : Float (l.value "a-max") aMax) (h3 : Float (l.value "draw-speed") speed)
    (h5 : Integer (l.value "intensity") p) (hp : ∀ k ∈ p, 0 ≤ k ∧ k ≤ 100) (h6 : Float (l.value "width") width)
    (h7 : Float (l.value "height") height) (h8 : Float (l.value "spot-diam") spot) :
    ∃ o, rasterNumbers (lineMatches l) = .ok o ∧
      o.options = some ⟨vMax.map (↑), aMax.map (↑), speed.map (↑), p, width.map (↑), height.map (↑), spot.map (↑)⟩ := by
  have str : ∀ word : String, 2 ≤ word.toList.length → word.toList ≠ ['h', 'e', 'l', 'p'] →
      (lineMatches l).str word = l.value word := line_str l
  rw [← str _ (by decide) (by decide)] at h1 h2 h3 h5 h6 h7 h8
  obtain ⟨v1, e1, f1⟩ := floatOpt_value (bad := .badVMax) h1
  obtain ⟨v2, e2, f2⟩ := floatOpt_value (bad := .badAMax) h2
  obtain ⟨v3, e3, f3⟩ := floatOpt_value (bad := .badSpeed) h3
  have e5 := intOpt_value (bad := .badIntensity) (range := .intensityRange) (P := fun n => 0 ≤ n ∧ n ≤ 100) h5
    (by simpa using hp)
  obtain ⟨v6, e6, f6⟩ := floatOpt_value (bad := .badWidth) h6
  obtain ⟨v7, e7, f7⟩ := floatOpt_value (bad := .badHeight) h7
  obtain ⟨v8, e8, f8⟩ := floatOpt_value (bad := .badSpot) h8
  refine ⟨⟨v1, v2, v3, p, v6, v7, v8⟩, by simp only [rasterNumbers, e1, e2, e3, e5, e6, e7, e8]; rfl, ?_⟩
  simp [RasterNumbers.options, f1, f2, f3, f6, f7, f8]

theorem rasterNumbers_error {m : Matches} {msg : Message} (h : rasterNumbers m = .error msg) : msg.AboutNumber := by
  simp only [rasterNumbers, bind, Except.bind] at h
  unfold Message.AboutNumber
  split at h
  · rename_i h1
    simp only [Except.error.injEq] at h
    rw [← h, floatOpt_error h1]; decide
  split at h
  · rename_i h1
    simp only [Except.error.injEq] at h
    rw [← h, floatOpt_error h1]; decide
  split at h
  · rename_i h1
    simp only [Except.error.injEq] at h
    rw [← h, floatOpt_error h1]; decide
  split at h
  · rename_i h1
    simp only [Except.error.injEq] at h
    rw [← h]
    rcases intOpt_error h1 with e | e <;> rw [e] <;> decide
  split at h
  · rename_i h1
    simp only [Except.error.injEq] at h
    rw [← h, floatOpt_error h1]; decide
  split at h
  · rename_i h1
    simp only [Except.error.injEq] at h
    rw [← h, floatOpt_error h1]; decide
  split at h
  · rename_i h1
    simp only [Except.error.injEq] at h
    rw [← h, floatOpt_error h1]; decide
  simp [pure, Except.pure] at h

/-! ### The rest of the programs -/

theorem svgRun_port {e : Draw.Env} {cfg : Xy} {o : SvgNumbers} {opts : Options} (h : o.options = some opts)
    (hn : 1 ≤ opts.repeats.getD 1) (hp : 0 ≤ opts.intensity.getD 5 ∧ opts.intensity.getD 5 ≤ 100)
    (layer : Option Arg) (doc : List XmlEvent) (port : Port) :
    svgRun e cfg o layer doc (some port) = svgProgram cfg opts layer e doc port := by
  unfold svgRun svgProgram svgMain
  have hc : ¬ (opts.repeats.getD 1 < 1 ∨ opts.intensity.getD 5 < 0 ∨ opts.intensity.getD 5 > 100) := by omega
  simp only [h, Option.bind_eq_bind, Option.bind_some, if_neg hc]
  rfl

theorem svgRun_dry {e : Draw.Env} {cfg : Xy} {o : SvgNumbers} {layer : Option Arg} {doc : List XmlEvent} {port : Port}
    {p : Option Port} (h : svgRun e cfg o layer doc (some port) = some p) :
    svgRun e cfg o layer doc none = some none ∧ ∃ q, p = some q := by
  unfold svgRun at h ⊢
  simp only [Option.bind_eq_bind, Option.bind_eq_some_iff] at h
  obtain ⟨opts, h1, h⟩ := h
  simp only [h1, Option.bind_eq_bind, Option.bind_some]
  split at h
  · rename_i path hpath
    simp only [Option.bind_eq_some_iff] at h
    obtain ⟨c, h2, u, h3, r, h4, h5⟩ := h
    simp only [h2, h3, Option.bind_some]
    refine ⟨trivial, ?_⟩
    split at h5
    · exact ⟨_, (Option.some.inj h5).symm⟩
    · simp at h5
  · simp at h

theorem rasterRun_port {cfg : Xy} {o : RasterNumbers} {opts : RasterOptions} (h : o.options = some opts)
    (hp : 0 ≤ opts.intensity.getD 5 ∧ opts.intensity.getD 5 ≤ 100) (img : Image) (port : Port) :
    rasterRun cfg o img (some port) = rasterMain cfg opts img port := by
  unfold rasterRun rasterMain
  have hc : ¬ (opts.intensity.getD 5 < 0 ∨ opts.intensity.getD 5 > 100) := by omega
  simp only [h, Option.bind_eq_bind, Option.bind_some, if_neg hc]
  rfl

theorem rasterRun_dry {cfg : Xy} {o : RasterNumbers} {img : Image} {port : Port}
    {p : Option Port} (h : rasterRun cfg o img (some port) = some p) :
    rasterRun cfg o img none = some none ∧ ∃ q, p = some q := by
  unfold rasterRun at h ⊢
  simp only [Option.bind_eq_bind, Option.bind_eq_some_iff] at h
  obtain ⟨opts, h1, c, h2, u, h3, r, h4, h5⟩ := h
  simp only [h1, h2, h3, Option.bind_eq_bind, Option.bind_some]
  refine ⟨trivial, ?_⟩
  split at h5
  · exact ⟨_, (Option.some.inj h5).symm⟩
  · simp at h5

end StepperPaths.Cli
