import Verif.Proof.Plot
import Verif.Proof.IntegerCurve.Long

/-!
Property C106: what the programs `paths` and `animate_curve` print.
-/

namespace StepperPaths.Props
open IntegerCurve Control Plot Spec

/-- Everything about a curve that 65535 ticks are enough for. -/
theorem curve_facts (l : PathLimits) (h : FitsI64 l) (hr : 8 * l.vmax + 4 * l.a ≤ l.a * 65535)
    (hd : |l.ds| ≤ l.vmax * 65535) :
    ∃ p d, Checked.shortestCurve l.ds l.v0 l.vn l.a l.vmax = some p ∧ Checked.distance p = some d ∧
      p.v0 = l.v0 ∧ p.vn = l.vn ∧ p.amax = l.a ∧ 1 ≤ p.tTotal ∧ p.tTotal ≤ 65535 ∧
      |d - l.ds| ≤ 1 ∧ (d = l.ds ↔ (l.ds - (l.v0 + l.vn)) % 2 = 0) ∧
      (∀ ticks, Motion l.a l.vmax l.v0 l.vn ticks → dist l.v0 ticks = l.ds → |l.v0 + l.vn| ≤ l.a * ticks.length →
        p.tTotal ≤ ticks.length + 1) ∧
      (l.a ≤ 32767 → ∃ segs, Checked.accSeq p = some segs ∧ ((expand segs).length : ℤ) = p.tTotal ∧
        d = dist l.v0 (expand segs) ∧ Motion l.a l.vmax l.v0 l.vn (expand segs) ∧
        ∀ s ∈ segs, 0 < s.interval ∧ |s.acc| ≤ l.a) := by
  have hl := h.inLimits
  obtain ⟨r, e, -, -, hc⟩ := scl_spec hl.valid
  have c1 : Contains r.ranges 65535 := (hc 65535).2 ⟨SideOK.long hl.valid (by norm_num [i64Max]) hr hd,
    SideOK.long hl.valid.neg (by norm_num [i64Max]) hr (by rw [abs_neg]; exact hd)⟩
  obtain ⟨r', p, e1, e2, -, e4⟩ := C17_least_length_used _ _ _ _ _ hl
  rw [e] at e1
  cases e1
  have hT := e4 65535 c1
  obtain ⟨p', d, f1, f2, f3, f4, f5, f6, f7, f8⟩ := C11_distance_reached _ _ _ _ _ hl
  rw [e2] at f1
  cases f1
  obtain ⟨g1, g2⟩ := C87_curve l h p e2 (by omega)
  have g3 := C87_distance l h p e2 (by omega)
  refine ⟨p, d, g1, g3.trans f6, f2, f3, f4, f5, hT, f7, f8, ?_, ?_⟩
  · intro ticks m1 m2 m3
    obtain ⟨p', k1, k2⟩ := C18_within_one_tick _ _ _ _ _ hl ticks m1 m2 m3
    rw [e2] at k1
    cases k1
    exact k2
  · intro ha
    obtain ⟨p', k1, -, k3⟩ := C15_no_panic _ _ _ _ _ hl
    rw [e2] at k1
    cases k1
    obtain ⟨segs, k4⟩ := k3 hT ha
    obtain ⟨i1, i2, i3, i4⟩ := C12_sequence_realises_path _ _ _ _ _ hl p segs e2 k4
    have i5 := C13_acceleration_limited _ _ _ _ _ hl p segs e2 k4
    have i6 := C14_speed_limited _ _ _ _ _ hl p segs e2 k4
    refine ⟨segs, g2.trans k4, i1, ?_, ⟨i2, ?_, i6⟩, fun s hs => ⟨(i4 s hs).1, i5 s hs⟩⟩
    · rw [i3] at f6
      exact (Option.some.inj f6).symm
    · intro x hx
      obtain ⟨s, hs, hx⟩ := List.mem_flatMap.1 hx
      rw [(List.mem_replicate.1 hx).2]
      exact i5 s hs

/-! ### The program `animate_curve` -/

/-- One curve. -/
theorem animate_one (l : PathLimits) (h : FitsI64 l) (ha : l.a ≤ 32767) (hr : 8 * l.vmax + 4 * l.a ≤ l.a * 65535)
    (hd : |l.ds| ≤ l.vmax * 65535) :
    ∃ c T, animateOne l.v0 l.vn l.vmax l.a l.ds = some (joined c ++ [',', '\n']) ∧ 1 ≤ T ∧ T ≤ 65535 ∧
      VelocityCurve l.v0 l.vn l.a l.vmax T c ∧ Covers l.ds l.v0 l.vn l.a l.vmax T c := by
  obtain ⟨p, d, e1, -, -, -, -, t1, t2, d1, d2, hq, hs⟩ := curve_facts l h hr hd
  obtain ⟨segs, e2, k1, k2, k3, k4⟩ := hs ha
  have hsp := corners_speed segs 0 l.v0 (fun s hs => (k4 s hs).1) k3.vel
  have hv := h.v_max
  have h0 := h.start
  obtain ⟨text, e3, e4⟩ := animateSegs_ok (vmax := l.vmax) (by omega) segs 0 l.v0 (by omega) h0 hsp
  refine ⟨(0, l.v0) :: corners 0 l.v0 segs, (expand segs).length, ?_, by omega, by omega,
    ⟨rfl, ?_, corners_slope segs 0 l.v0 k4, ?_⟩, ⟨?_, ?_, ?_⟩⟩
  · unfold animateOne
    simp only [e1, e2, asI32_id (lt_of_le_of_lt h0 (by omega)), e3, Option.bind_eq_bind, Option.bind_some]
    rw [← e4]
    simp [pairText, showNat_eq]
  · rw [corners_last, k3.endv, zero_add]
  · intro q hq
    rcases List.mem_cons.1 hq with rfl | hq
    · exact h0
    · exact hsp q hq
  · rw [corners_area, ← k2]; exact d1
  · rw [corners_area, ← k2]; exact d2
  · intro ticks m1 m2 m3
    have := hq ticks m1 m2 m3
    omega

/-- The curves from `ds` on. -/
theorem animate_loop (v0 vn vmax a : ℤ) (n : ℕ) (ds : ℤ) (P : ℤ → List (ℕ × ℤ) → Prop)
    (h : ∀ k : ℕ, k < n → ∃ c, animateOne v0 vn vmax a (ds + k) = some (joined c ++ [',', '\n']) ∧ P (ds + k) c) :
    ∃ curves : List (List (ℕ × ℤ)), animateLoop v0 vn vmax a n ds = some (elements ['\n'] (curves.map joined),
        elements [] ((List.range n).map fun k : ℕ => showInt (ds + k))) ∧ curves.length = n ∧
      ∀ (i : ℕ) c, curves[i]? = some c → P (ds + i) c := by
  induction n generalizing ds with
  | zero => exact ⟨[], rfl, rfl, by simp⟩
  | succ n ih =>
    obtain ⟨c, e1, hc⟩ := h 0 (by omega)
    simp only [Nat.cast_zero, add_zero] at e1 hc
    obtain ⟨cs, e2, hl, hcs⟩ := ih (ds + 1) (fun k hk => by
      have := h (k + 1) (by omega)
      push_cast at this
      rwa [show ds + ((k : ℤ) + 1) = ds + 1 + k by ring] at this)
    refine ⟨c :: cs, ?_, by simp [hl], ?_⟩
    · simp only [animateLoop, e1, e2, Option.bind_eq_bind, Option.bind_some]
      rw [List.range_succ_eq_map]
      simp only [elements, List.map_cons, List.map_map, List.flatMap_cons]
      have : ((fun k : ℕ => showInt (ds + k)) ∘ Nat.succ) = fun k : ℕ => showInt (ds + 1 + k) := by
        funext k
        simp only [Function.comp, Nat.succ_eq_add_one]
        push_cast
        rw [show ds + ((k : ℤ) + 1) = ds + 1 + k by ring]
      rw [this]
      simp
    · intro i x hx
      cases i with
      | zero =>
        simp only [List.getElem?_cons_zero, Option.some.injEq] at hx
        subst hx
        simpa using hc
      | succ i =>
        rw [List.getElem?_cons_succ] at hx
        have := hcs i x hx
        push_cast
        rwa [show ds + ((i : ℤ) + 1) = ds + 1 + i by ring]

/-- C106: for limits that can be kept within 65535 ticks, `animate_curve` prints an Asymptote program that
defines 140 curves of velocity and the distances -70 to 69.  Each curve starts and ends with the given
velocities, keeps the limits and moves the distance, as quickly as C18 says. -/
theorem C106_animation (prog s0 s1 s2 s3 : List Char) (rest : List (List Char)) (v0 vn vmax a : ℤ)
    (h0 : readInt s0 = some v0) (h1 : readInt s1 = some vn) (h2 : readInt s2 = some vmax) (h3 : readInt s3 = some a)
    (ha : 1 ≤ a) (ha' : a ≤ 32767) (hv : 1 ≤ vmax) (hv' : vmax ≤ 2 ^ 27) (hs : |v0| ≤ vmax) (he : |vn| ≤ vmax)
    (hr : 8 * vmax + 4 * a ≤ a * 65535) :
    ∃ curves : List (List (ℕ × ℤ)),
      animateMain (prog :: s0 :: s1 :: s2 :: s3 :: rest) = some (animatePrefix.toList ++ "path c[] = { ".toList ++
        elements ['\n'] (curves.map joined) ++ "};\nint dist[] = {\n".toList ++
        elements [] ((List.range 140).map fun k : ℕ => showInt (-70 + k)) ++ "};\n".toList ++ animateSuffix.toList) ∧
      curves.length = 140 ∧
      ∀ (i : ℕ) c, curves[i]? = some c → ∃ T, 1 ≤ T ∧ T ≤ 65535 ∧ VelocityCurve v0 vn a vmax T c ∧
        Covers (-70 + i) v0 vn a vmax T c := by
  have b0 := abs_le.1 hs
  have b1 := abs_le.1 he
  obtain ⟨curves, e, hl, hc⟩ := animate_loop v0 vn vmax a 140 (-70)
    (fun ds c => ∃ T, 1 ≤ T ∧ T ≤ 65535 ∧ VelocityCurve v0 vn a vmax T c ∧ Covers ds v0 vn a vmax T c) (by
      intro k hk
      obtain ⟨c, T, h⟩ := animate_one ⟨-70 + k, v0, vn, a, vmax⟩
        ⟨ha, by simp only; omega, hv, hv', hs, he, by simp only; rw [abs_le]; constructor <;> omega⟩ ha' hr
        (by simp only; rw [abs_le]; constructor <;> omega)
      exact ⟨c, h.1, T, h.2⟩)
  refine ⟨curves, ?_, hl, hc⟩
  have lo : i64Min ≤ -2 ^ 30 := by norm_num [i64Min]
  have hi : 2 ^ 30 ≤ i64Max := by norm_num [i64Max]
  unfold animateMain
  simp only [List.drop_succ_cons, List.drop_zero, nextArg_some _ h0 (by omega) (by omega),
    nextArg_some _ h1 (by omega) (by omega), nextArg_some _ h2 (by omega) (by omega),
    nextArg_some _ h3 (by omega) (by omega), e, Option.bind_eq_bind, Option.bind_some]
  simp

/-- One of the next `n` arguments is missing or is not a number. -/
def BadArgs (n : ℕ) (args : List (List Char)) : Prop :=
  args.length < n ∨ ∃ i s, i < n ∧ args[i]? = some s ∧ ∀ n, readInt s = some n → i64Min ≤ n → i64Max < n

theorem no_arg (args : List (List Char)) : ¬BadArgs 0 args := by
  rintro (h | ⟨i, s, h, -⟩) <;> omega

theorem missing_arg (n : ℕ) (args : List (List Char)) {β : Type} (f : Int × List (List Char) → Option β)
    (h : BadArgs (n + 1) args) (hf : ∀ m rest, BadArgs n rest → f (m, rest) = none) : (nextArg args).bind f = none := by
  cases args with
  | nil => rfl
  | cons s rest =>
    cases hs : parseI64 s with
    | none => simp [nextArg, hs]
    | some m =>
      have e : nextArg (s :: rest) = some (m, rest) := by simp [nextArg, hs]
      rw [e, Option.bind_some]
      apply hf
      rcases h with h | ⟨i, s', hi, hs', hn⟩
      · left
        simp only [List.length_cons] at h
        omega
      · right
        cases i with
        | zero =>
          simp only [List.getElem?_cons_zero, Option.some.injEq] at hs'
          subst hs'
          rw [nextArg_none s rest hn] at e
          cases e
        | succ i => exact ⟨i, s', by omega, by simpa using hs', hn⟩

/-- C106: `animate_curve` panics if one of the first four arguments is missing, is not a decimal number or is not
an `i64`, whatever the others are. -/
theorem C106_animation_args (prog : List Char) (args : List (List Char))
    (h : args.length < 4 ∨ ∃ i s, i < 4 ∧ args[i]? = some s ∧ ∀ n, readInt s = some n → i64Min ≤ n → i64Max < n) :
    animateMain (prog :: args) = none := by
  unfold animateMain
  refine missing_arg 3 args _ h (fun m rest h => ?_)
  refine missing_arg 2 rest _ h (fun m rest h => ?_)
  refine missing_arg 1 rest _ h (fun m rest h => ?_)
  refine missing_arg 0 rest _ h (fun m rest h => (no_arg rest h).elim)

/-- Three curves of a program call with the speeds 2 and -1 and the limits 6 and 2. -/
example : ∃ curves : List (List (ℕ × ℤ)),
    (∃ a b, animateMain ["animate_curve".toList, "2".toList, "-1".toList, "6".toList, "2".toList] =
      some (a ++ elements ['\n'] (curves.map joined) ++ b)) ∧
    curves.length = 140 ∧ (∀ c, curves[101]? = some c → area2 c = 31) ∧ (∀ c, curves[100]? = some c → area2 c ≠ 30) := by
  obtain ⟨curves, e, h1, h2⟩ := C106_animation "animate_curve".toList "2".toList "-1".toList "6".toList "2".toList []
    2 (-1) 6 2 (by decide) (by decide) (by decide) (by decide) (by decide) (by decide) (by decide) (by decide)
    (by decide) (by decide) (by decide)
  refine ⟨curves, ⟨animatePrefix.toList ++ "path c[] = { ".toList, "};\nint dist[] = {\n".toList ++
    (elements [] ((List.range 140).map fun k : ℕ => showInt (-70 + k)) ++ ("};\n".toList ++ animateSuffix.toList)), ?_⟩,
    h1, ?_, ?_⟩
  · rw [e]
    simp only [List.append_assoc]
  · intro c hc
    obtain ⟨T, -, -, -, h⟩ := h2 101 c hc
    have := h.exact.2 (by norm_num)
    simpa using this
  · intro c hc h'
    obtain ⟨T, -, -, -, h⟩ := h2 100 c hc
    have := h.exact.1 (by simpa using h')
    norm_num at this

/-- The numbers that are printed are read back, so the corners can be read off the text. -/
example : pairText (12, -7) = "(12, -7)".toList ∧ joined [(0, 3), (4, -1), (6, -1)] = "(0, 3) -- (4, -1) -- (6, -1)".toList := by
  constructor <;> decide

/-! ### The program `paths` -/

/-- C106: for speeds up to 10 and distances up to 655350, `paths` prints the data of a curve that starts and
ends with the given velocities and the distance that it moves, which is the given one if that is possible
at all. -/
theorem C106_curve (prog s0 s1 s2 : List Char) (rest : List (List Char)) (ds v0 vn : ℤ)
    (h0 : readInt s0 = some ds) (h1 : readInt s1 = some v0) (h2 : readInt s2 = some vn)
    (hd : |ds| ≤ 655350) (hs : |v0| ≤ 10) (he : |vn| ≤ 10) :
    ∃ (vflat d adj : ℤ) (T : ℕ), curveMain (prog :: s0 :: s1 :: s2 :: rest) = some ("Curve: v= ".toList ++
        showInt v0 ++ " -> ".toList ++ showInt vn ++ " amax = 5, vflat = ".toList ++ showInt vflat ++
        ", t_total = ".toList ++ showInt T ++ ", t_adjust = ".toList ++ showInt adj ++ ", s = ".toList ++
        showInt d ++ ['\n']) ∧
      |d - ds| ≤ 1 ∧ (d = ds ↔ (ds - (v0 + vn)) % 2 = 0) ∧ 1 ≤ T ∧ T ≤ 65535 ∧
      (∃ ticks, ticks.length = T ∧ Motion 5 10 v0 vn ticks ∧ dist v0 ticks = d) ∧
      ∀ ticks, Motion 5 10 v0 vn ticks → dist v0 ticks = ds → |v0 + vn| ≤ 5 * ticks.length →
        T ≤ ticks.length + 1 := by
  have b0 := abs_le.1 hs
  have b1 := abs_le.1 he
  have b2 := abs_le.1 hd
  obtain ⟨p, d, e1, e2, e3, e4, e5, t1, t2, d1, d2, hq, hseg⟩ := curve_facts ⟨ds, v0, vn, 5, 10⟩
    ⟨by norm_num, by norm_num, by norm_num, by norm_num, hs, he, hd.trans (by norm_num)⟩ (by norm_num) (by simpa using hd)
  obtain ⟨segs, -, k1, k2, k3, -⟩ := hseg (by norm_num)
  have lo : i64Min ≤ -2 ^ 30 := by norm_num [i64Min]
  have hi : 2 ^ 30 ≤ i64Max := by norm_num [i64Max]
  have hT : (p.tTotal.toNat : ℤ) = p.tTotal := Int.toNat_of_nonneg (by omega)
  simp only at e1 e3 e4 e5
  refine ⟨p.vflat, d, p.tAdjust, p.tTotal.toNat, ?_, d1, d2, by omega, by omega,
    ⟨expand segs, by omega, k3, k2.symm⟩, fun ticks m1 m2 m3 => ?_⟩
  · unfold curveMain pathText
    simp only [List.drop_succ_cons, List.drop_zero, nextArg_some _ h0 (by omega) (by omega),
      nextArg_some _ h1 (by omega) (by omega), nextArg_some _ h2 (by omega) (by omega), e1, e2, e3, e4, e5, hT,
      Option.bind_eq_bind, Option.bind_some]
    rw [show "Curve: v= ".toList = "Curve: ".toList ++ "v= ".toList by decide,
      show " amax = 5, vflat = ".toList = " amax = ".toList ++ (showInt 5 ++ ", vflat = ".toList) by decide]
    simp only [List.append_assoc, Option.pure_def, Option.bind_some]
  · have := hq ticks m1 m2 m3
    omega

/-- C106: `paths` panics if one of the first three arguments is missing or not a decimal `i64`. -/
theorem C106_curve_args (prog : List Char) (args : List (List Char))
    (h : args.length < 3 ∨ ∃ i s, i < 3 ∧ args[i]? = some s ∧ ∀ n, readInt s = some n → i64Min ≤ n → i64Max < n) :
    curveMain (prog :: args) = none := by
  unfold curveMain
  refine missing_arg 2 args _ h (fun m rest h => ?_)
  refine missing_arg 1 rest _ h (fun m rest h => ?_)
  exact missing_arg 0 rest _ h (fun m rest h => (no_arg rest h).elim)

/-- A call of `paths`: 31 half steps can be made from velocity 2 to -1, 30 cannot. -/
example : (∃ (vflat adj : ℤ) (T : ℕ), curveMain ["paths".toList, "31".toList, "2".toList, "-1".toList] =
    some ("Curve: v= ".toList ++ showInt 2 ++ " -> ".toList ++ showInt (-1) ++ " amax = 5, vflat = ".toList ++
      showInt vflat ++ ", t_total = ".toList ++ showInt T ++ ", t_adjust = ".toList ++ showInt adj ++ ", s = ".toList ++
      showInt 31 ++ ['\n'])) ∧
    curveMain ["paths".toList, "31".toList, "2".toList, "x".toList] = none := by
  constructor
  · obtain ⟨vflat, d, adj, T, e, -, h, -⟩ := C106_curve "paths".toList "31".toList "2".toList "-1".toList [] 31 2 (-1)
      (by decide) (by decide) (by decide) (by decide) (by decide) (by decide)
    rw [h.2 (by norm_num)] at e
    exact ⟨vflat, adj, T, e⟩
  · exact C106_curve_args _ _ (Or.inr ⟨2, "x".toList, by norm_num, rfl, fun n hn => by
      rw [show readInt "x".toList = none by decide] at hn; cases hn⟩)

end StepperPaths.Props
