import Verif.Props.Stretched
import Verif.Props.RoundedArcProgram
import Verif.Proof.RoundedStretched

/-! # C108: circles that become ellipses, with rounded arithmetic -/

namespace StepperPaths.Props
open Coords Context Spec Draw Program Config Control StepperPaths.Svg Spec.Svg Rounded

/-- The arguments of an arc command contain those of a circle of radius `r`. -/
def HasRound (r : ℚ) (args : List ℚ) : Prop :=
  ∃ pre rot large sweep x y post, args = pre ++ r :: r :: rot :: large :: sweep :: x :: y :: post ∧ 7 ∣ pre.length

/-- A path with an arc of a circle in a place where the scales of the axes are different; `s` are the sizes of the numbers that
the transform is made of.  The difference may be very small, but not so small that it vanishes among the errors of the arithmetic. -/
structure StretchedCircle (tr : Transform) (s : Size) (text : List Char) : Prop where
  straight : s.bound.m1 = 0 ∧ s.bound.m2 = 0
  scales : s.bound.m0 = tr.m0 ∧ s.bound.m3 = tr.m3
  moderate : (1 / 2 ^ 10 ≤ tr.m0 ∧ tr.m0 ≤ 2 ^ 10) ∧ 1 / 2 ^ 10 ≤ tr.m3 ∧ tr.m3 ≤ 2 ^ 10
  circle : ∃ (cmds : List Cmd) (trail : List Char) (c : Cmd) (r : ℚ), text = pathText cmds ++ trail ∧ (∀ c ∈ cmds, c.Valid) ∧
    White trail ∧ c ∈ cmds ∧ (c.letter = 'a' ∨ c.letter = 'A') ∧ HasRound r c.args.values ∧ 1 / 2 ^ 10 ≤ (r : ℝ) ∧ (r : ℝ) ≤ 2 ^ 20 ∧
    1 / 2 ^ 51 + (1000 * s.count + 1000) / 2 ^ 52 * (r * max tr.m0 tr.m3) < r * |tr.m0 - tr.m3|

/-- An arc whose half axes are computed as different. -/
def UnevenF (fl : ℝ → ℝ) (seg : Seg) : Prop := ∃ rx ry a b rot, seg = .arc rx ry a b rot ∧ 1 / 4503599627370496 < |fl (rx - ry)|

theorem arcLoopF_uneven {fl : ℝ → ℝ} {lib : Lib} {tr : Transform} {r : ℝ}
    (key : ∀ d rot large sweep seg, arcSegF fl lib tr d ⟨r, r, rot, large, sweep⟩ = some (.ok seg) → UnevenF fl seg) {rel : Bool} :
    ∀ (args : List ℝ) (s s' : PathState), HasCircle r args → arcLoopF fl lib rel tr args s = some (.ok (), s') →
      ∃ seg ∈ s'.segs, UnevenF fl seg := by
  intro args s s' hc h
  fun_induction arcLoopF fl lib rel tr args s with
  | case1 => simp at h
  | case2 => simp at h
  | case3 s rx ry rot large sweep x y rest a d seg hseg ih =>
    obtain ⟨pre, rot', large', sweep', x', y', post, he, h7⟩ := hc
    match pre, he, h7 with
    | [], he, _ =>
      simp only [List.nil_append, List.cons.injEq] at he
      obtain ⟨rfl, rfl, -⟩ := he
      exact ⟨seg, Acc.arcLoopF_mem seg rel tr _ _ _ (by simp [PathState.push]) h, key _ _ _ _ _ hseg⟩
    | [_], _, h7 => simp at h7
    | [_, _], _, h7 => simp at h7
    | [_, _, _], _, h7 => simp at h7
    | [_, _, _, _], _, h7 => simp at h7
    | [_, _, _, _, _], _, h7 => simp at h7
    | [_, _, _, _, _, _], _, h7 => simp at h7
    | _ :: _ :: _ :: _ :: _ :: _ :: _ :: pre, he, h7 =>
      simp only [List.cons_append, List.cons.injEq] at he
      obtain ⟨-, -, -, -, -, -, -, rfl⟩ := he
      refine ih ⟨pre, rot', large', sweep', x', y', post, rfl, ?_⟩ h
      simp only [List.length_cons] at h7
      omega
  | case4 s args hne =>
    obtain ⟨pre, rot', large', sweep', x', y', post, rfl, h7⟩ := hc
    exfalso
    match pre with
    | [] => exact hne _ _ _ _ _ _ _ _ rfl
    | [_] => exact hne _ _ _ _ _ _ _ _ rfl
    | [_, _] => exact hne _ _ _ _ _ _ _ _ rfl
    | [_, _, _] => exact hne _ _ _ _ _ _ _ _ rfl
    | [_, _, _, _] => exact hne _ _ _ _ _ _ _ _ rfl
    | [_, _, _, _, _] => exact hne _ _ _ _ _ _ _ _ rfl
    | [_, _, _, _, _, _] => exact hne _ _ _ _ _ _ _ _ rfl
    | _ :: _ :: _ :: _ :: _ :: _ :: _ :: pre => exact hne _ _ _ _ _ _ _ _ rfl

theorem buildAllF_uneven {fl : ℝ → ℝ} {lib : Lib} {tr : Transform} {r : ℝ}
    (key : ∀ d rot large sweep seg, arcSegF fl lib tr d ⟨r, r, rot, large, sweep⟩ = some (.ok seg) → UnevenF fl seg) {cmd : Char}
    (hc : cmd = 'a' ∨ cmd = 'A') {args : List ℝ} (ha : HasCircle r args) : ∀ {cmds : List (Char × List ℝ)} {first : Bool} {s s' : PathState},
    (cmd, args) ∈ cmds → Acc.buildAllF fl lib tr first cmds s = some (.ok (), s') → ∃ seg ∈ s'.segs, UnevenF fl seg
  | (cmd', args') :: rest, first, s, s', hm, h => by
    rw [Acc.buildAllF] at h
    split at h
    · simp at h
    · simp at h
    · next h1 =>
      rcases List.mem_cons.1 hm with he | hm
      · cases he
        have h2 : ∃ rel, checkArgs 7 args s (arcLoopF fl lib rel tr args s) = buildPathF fl lib cmd args tr first s := by
          rcases hc with rfl | rfl
          · exact ⟨true, rfl⟩
          · exact ⟨false, rfl⟩
        obtain ⟨rel, h2⟩ := h2
        rw [← h2] at h1
        obtain ⟨seg, k1, k2⟩ := arcLoopF_uneven key _ _ _ ha (check_ok h1)
        exact ⟨seg, Acc.buildAllF_mem seg k1 h, k2⟩
      · exact buildAllF_uneven key hc ha hm h

theorem arcSegF_uneven {fl : ℝ → ℝ} (hf : FloatRounding fl) {lib : Lib} (hl : FloatLib lib) (ha : FloatAngles lib) {tr' tr : Transform} {s : Size}
    (hn : Acc.Near tr' tr s) (hc : s.count ≤ 30) {text : List Char} (h : StretchedCircle tr s text) {r : ℚ} (r0 : 1 / 2 ^ 10 ≤ (r : ℝ))
    (r1 : (r : ℝ) ≤ 2 ^ 20) (hd : 1 / 2 ^ 51 + (1000 * s.count + 1000) / 2 ^ 52 * (r * max tr.m0 tr.m3) < r * |tr.m0 - tr.m3|)
    (d : Vec) (rot : ℝ) (large sweep : Prop) (seg : Seg) (hs : arcSegF fl lib tr' d ⟨fl r, fl r, rot, large, sweep⟩ = some (.ok seg)) :
    UnevenF fl seg := by
  obtain ⟨⟨x0, x1⟩, y0, y1⟩ := h.moderate
  have z1 : tr'.m1 = 0 := by
    have h1 := hn.m1.err
    have h2 := hn.m1.le
    rw [h.straight.1] at h1 h2
    rw [abs_nonpos_iff.1 h2, sub_zero, mul_zero] at h1
    exact abs_nonpos_iff.1 h1
  have z2 : tr'.m2 = 0 := by
    have h1 := hn.m2.err
    have h2 := hn.m2.le
    rw [h.straight.2] at h1 h2
    rw [abs_nonpos_iff.1 h2, sub_zero, mul_zero] at h1
    exact abs_nonpos_iff.1 h1
  have m0 := hn.m0
  have m3 := hn.m3
  rw [h.scales.1] at m0
  rw [h.scales.2] at m3
  have rr : Acc.App 1 10 (fl r) r (r : ℝ) :=
    (Acc.App.exact (n := 10) (abs_of_pos (lt_of_lt_of_le (by norm_num) r0)).le (.inl r0)).rnd hf (by norm_num)
  unfold arcSegF at hs
  split at hs
  · simp at hs
  rw [z1, z2] at hs
  cases ht : transformEllipseF fl lib (fl r) (fl r) rot ⟨tr'.m0, 0, 0, tr'.m3⟩ with
  | none => rw [ht] at hs; simp at hs
  | some v =>
    obtain ⟨rx, ry, rot'⟩ := v
    rw [ht] at hs
    simp only [Option.bind_some] at hs
    have := Acc.stretched_uneven hf hl ha rr (m0.floor' x0) (m3.floor' y0) r0 r1 x0 x1 y0 y1 hc ht hd
    split at hs
    · simp at hs
    · simp only [Option.some.injEq, Except.ok.injEq] at hs
      exact ⟨rx, ry, _, _, rot', hs.symm, this⟩

theorem path_unevenF {fl : ℝ → ℝ} (hf : FloatRounding fl) {lib : Lib} (hl : FloatLib lib) (ha : FloatAngles lib) {tr' tr : Transform} {s : Size}
    (hn : Acc.Near tr' tr s) (hc : s.count ≤ 30) {text : List Char} (h : StretchedCircle tr s text) {s0 s1 : PathState}
    (hp : parsePathF fl lib text tr' s0 = some (.done (.ok ()) s1)) : ∃ seg ∈ s1.segs, UnevenF fl seg := by
  obtain ⟨cmds, trail, c, r, rfl, hv, ht, hcm, hl', hround, r0, r1, hd⟩ := h.circle
  have key := arcSegF_uneven hf hl ha hn hc h r0 r1 hd
  unfold parsePathF at hp
  cases hb : Acc.buildAllF fl lib tr' true (cmds.map fun c => (c.letter, c.args.values.map fun q : ℚ => fl (q : ℝ))) s0 with
  | none => rw [Acc.pathLoopF_cmds_none tr' cmds hv ht true s0 hb] at hp; simp at hp
  | some v =>
    obtain ⟨r', s'⟩ := v
    rw [Acc.pathLoopF_cmds tr' cmds hv ht true s0 s' hb] at hp
    simp only [Option.some.injEq, Outcome.done.injEq] at hp
    obtain ⟨rfl, rfl⟩ := hp
    obtain ⟨pre, rot, large, sweep, x, y, post, e, h7⟩ := hround
    refine buildAllF_uneven key hl' (args := c.args.values.map fun q : ℚ => fl (q : ℝ)) ?_ (List.mem_map.2 ⟨c, hcm, rfl⟩) hb
    exact ⟨pre.map fun q : ℚ => fl (q : ℝ), fl rot, fl large, fl sweep, fl x, fl y, post.map fun q : ℚ => fl (q : ℝ), by simp [e], by simpa using h7⟩

theorem paths_unevenF {fl : ℝ → ℝ} (hf : FloatRounding fl) {lib : Lib} (hl : FloatLib lib) (ha : FloatAngles lib)
    {p' p : List (Transform × List Char)} {z : List Size} (hn : Acc.NearPaths p' p z) (hz : ∀ s ∈ z, s.count ≤ 30) {tr : Transform} {text : List Char}
    {s : Size} (h : StretchedCircle tr s text) (hm : ((tr, text), s) ∈ p.zip z) {s0 s1 : PathState} (hr : Acc.runPathsF fl lib p' s0 = some s1) :
    ∃ seg ∈ s1.segs, UnevenF fl seg := by
  induction hn generalizing s0 with
  | nil => simp at hm
  | @cons t' t d s' p' p z h1 hn ih =>
    rw [Acc.runPathsF] at hr
    split at hr
    · next s2 h2 =>
      simp only [List.zip_cons_cons, List.mem_cons, Prod.mk.injEq] at hm
      rcases hm with ⟨⟨rfl, rfl⟩, rfl⟩ | hm
      · obtain ⟨seg, k1, k2⟩ := path_unevenF hf hl ha h1 (hz _ (by simp)) h h2
        exact ⟨seg, Acc.runPathsF_mem seg k1 hr, k2⟩
      · exact ih (fun s hs => hz s (by simp [hs])) hm hr
    · simp at hr

/-- C108: `transform_ellipse` with rounding, for a circle, turned or not, and a scale of the axes: it does not panic, and the half axes
that it returns are those of the image, in one order or the other, up to 232 units in the last place. -/
theorem C108_half_axes (fl : ℝ → ℝ) (hf : FloatRounding fl) (lib : Lib) (hl : FloatLib lib) (ha : FloatAngles lib) (r sx sy rot : ℝ)
    (r0 : 1 / 2 ^ 10 ≤ r) (r1 : r ≤ 2 ^ 20) (x0 : 1 / 2 ^ 10 ≤ sx) (x1 : sx ≤ 2 ^ 10) (y0 : 1 / 2 ^ 10 ≤ sy) (y1 : sy ≤ 2 ^ 10) :
    ∃ rx ry rot' a b, transformEllipseF fl lib r r rot ⟨sx, 0, 0, sy⟩ = some (rx, ry, rot') ∧ (a = rx ∧ b = ry ∨ a = ry ∧ b = rx) ∧ |a - r * sx| ≤ 232 / 2 ^ 52 * (r * sx) ∧ |b - r * sy| ≤ 232 / 2 ^ 52 * (r * sy) := by
  have ex : ∀ {x : ℝ}, 1 / 2 ^ 10 ≤ x → Acc.App 0 10 x x x := fun h =>
    Acc.App.exact (abs_of_pos (lt_of_lt_of_le (by norm_num) h)).le (.inl h)
  have hg : Acc.g (16 * 0 + 20 * 0 + 116) ≤ 232 / 2 ^ 52 := (Acc.g_le (by norm_num)).trans (by norm_num)
  have rp : 0 < r := lt_of_lt_of_le (by norm_num) r0
  have xp : 0 < sx := lt_of_lt_of_le (by norm_num) x0
  have yp : 0 < sy := lt_of_lt_of_le (by norm_num) y0
  obtain ⟨rx, ry, rot', h, k⟩ := Acc.stretched_near hf hl ha (ex r0) (ex x0) (ex y0) r0 r1 x0 x1 y0 y1 (by norm_num) (by norm_num) rot
  rcases k with ⟨k1, k2⟩ | ⟨k1, k2⟩
  · exact ⟨rx, ry, rot', rx, ry, h, .inl ⟨rfl, rfl⟩, k1.err.trans (by gcongr), k2.err.trans (by gcongr)⟩
  · exact ⟨rx, ry, rot', ry, rx, h, .inr ⟨rfl, rfl⟩, k2.err.trans (by gcongr), k1.err.trans (by gcongr)⟩

/-- A circle of radius 50, three times as wide and half as high, is an ellipse with half axes of 150 and 25, whatever its rotation. -/
example (lib : Lib) (hl : FloatLib lib) (ha : FloatAngles lib) (rot : ℝ) :
    ∃ rx ry rot' a b, transformEllipseF double lib 50 50 rot ⟨3, 0, 0, 1 / 2⟩ = some (rx, ry, rot') ∧ (a = rx ∧ b = ry ∨ a = ry ∧ b = rx) ∧
      |a - 150| ≤ 1 / 10 ^ 10 ∧ |b - 25| ≤ 1 / 10 ^ 10 := by
  obtain ⟨rx, ry, rot', a, b, h, hab, h1, h2⟩ := C108_half_axes double C90_double lib hl ha 50 3 (1 / 2) rot (by norm_num) (by norm_num) (by norm_num)
    (by norm_num) (by norm_num) (by norm_num)
  refine ⟨rx, ry, rot', a, b, h, hab, ?_, ?_⟩
  · norm_num at h1 ⊢; linarith
  · norm_num at h2 ⊢; linarith

/-- **C108.**  A document with an arc of a circle in a place where the axes are scaled differently is never burned with rounded
arithmetic either, if the difference of the radii is larger than the errors of the arithmetic: whatever the configuration, the options
and the device are, the program panics before anything is sent. -/
theorem C108_stretched (fl : ℝ → ℝ) (hf : FloatRounding fl) (lib : Lib) (hl : FloatLib lib) (ha : FloatAngles lib) (cfg : Xy) (o : Options)
    (layer : Option (List Char)) (e : Rounded.Env)
    (he : ∀ pos rx ry a b rot, e.other pos (.arc rx ry a b rot) = Rounded.arcInfo fl lib.sin lib.cos pos rx ry a b)
    (f : Forest) (l : List (Transform × List Char)) (hp : f.paths (keepOf layer) .identity = some l)
    (z : List Size) (hz : f.sizes (keepOf layer) ⟨.identity, 0⟩ = some z) (hc : ∀ s ∈ z, s.count ≤ 30)
    (tr : Transform) (text : List Char) (s : Size) (hm : ((tr, text), s) ∈ l.zip z) (h : StretchedCircle tr s text)
    (port : Port) (hn : 1 ≤ o.repeats.getD 1) (hi : 0 ≤ o.intensity.getD 5 ∧ o.intensity.getD 5 ≤ 100) :
    svgProgramF fl lib cfg o layer e f.events port = none := by
  unfold svgProgramF
  simp only
  rw [if_neg (by omega)]
  split
  · next path hpath =>
    obtain ⟨p', h1, h2⟩ := Acc.paths_near (t' := .identity) (t := .identity) hf hl (keepOf layer) f (s := ⟨.identity, 0⟩)
      (fun _ => Acc.TApp.identity _ _) hp hz hc
    obtain ⟨s1, h3, rfl⟩ := Acc.parseDocumentF_paths (keepOf layer) f .identity p' path h1 hpath
    obtain ⟨seg, k1, rx, ry, a, b, rot, rfl, hd⟩ := paths_unevenF hf hl ha h2 hc h hm h3
    have : ∃ k, (o.repeats.getD 1).toNat = k + 1 := ⟨(o.repeats.getD 1).toNat - 1, by omega⟩
    obtain ⟨k, hk⟩ := this
    have draw : ∀ (v : ℝ) (c : Ctx), drawTimesF fl { e with stepScale := fun i => (cfg.stepper i).stepsPerMillimeter } s1.segs v (k + 1) c = none := by
      intro v c
      rw [drawTimesF, C101_ellipse_rounded fl lib.sin lib.cos { e with stepScale := fun i => (cfg.stepper i).stepsPerMillimeter } he c v hd k1]
      rfl
    simp [svgEventsF, hk, draw]
  · rfl

/-- C108: the sizes of a document.  If the width and the height are not in the ratio of those of the view box, up to about
2000 units in the last place, the circles of the document are refused. -/
theorem C108_view_box (fl : ℝ → ℝ) (hf : FloatRounding fl) (lib : Lib) (hl : FloatLib lib) (ha : FloatAngles lib)
    (w h v : List Char) (w' h' x y vw vh : ℚ) (h1 : parseLength w = some w') (h2 : parseLength h = some h')
    (h3 : parseViewBox v = some (x, y, vw, vh)) (w0 : 1 / 2 ^ 5 ≤ (w' : ℝ)) (h0 : 1 / 2 ^ 5 ≤ (h' : ℝ)) (vw0 : 0 < vw) (vh0 : 0 < vh)
    (hvw : Moderate vw) (hvh : Moderate vh) (hx : 1 / 2 ^ 10 ≤ (w' / vw : ℝ) ∧ (w' / vw : ℝ) ≤ 2 ^ 10)
    (hy : 1 / 2 ^ 10 ≤ (h' / vh : ℝ) ∧ (h' / vh : ℝ) ≤ 2 ^ 10)
    (cmds : List Cmd) (hv : ∀ c ∈ cmds, c.Valid) (c : Cmd) (hcm : c ∈ cmds)
    (hc : c.letter = 'a' ∨ c.letter = 'A') (r : ℚ) (hr : HasRound r c.args.values) (r0 : 1 / 2 ^ 10 ≤ (r : ℝ)) (r1 : (r : ℝ) ≤ 2 ^ 20)
    (hd : 1 / 2 ^ 51 + 2000 / 2 ^ 52 * (r * max (w' / vw : ℝ) (h' / vh)) < r * |(w' / vw : ℝ) - h' / vh|) (cfg : Xy) (o : Options)
    (e : Rounded.Env) (he : ∀ pos rx ry a b rot, e.other pos (.arc rx ry a b rot) = Rounded.arcInfo fl lib.sin lib.cos pos rx ry a b)
    (port : Port) (hn : 1 ≤ o.repeats.getD 1) (hi : 0 ≤ o.intensity.getD 5 ∧ o.intensity.getD 5 ≤ 100) :
    svgProgramF fl lib cfg o none e (boxOf w h v (pathText cmds)).events port = none := by
  have q1 : ratio w' vw = some (w' / vw : ℝ) := by
    unfold ratio
    rw [if_pos hvw, abs_of_pos (show (0 : ℝ) < w' from lt_of_lt_of_le (by norm_num) w0), abs_of_pos (show (0 : ℝ) < vw by exact_mod_cast vw0),
      max_eq_left w0]
  have q2 : ratio h' vh = some (h' / vh : ℝ) := by
    unfold ratio
    rw [if_pos hvh, abs_of_pos (show (0 : ℝ) < h' from lt_of_lt_of_le (by norm_num) h0), abs_of_pos (show (0 : ℝ) < vh by exact_mod_cast vh0),
      max_eq_left h0]
  refine C108_stretched fl hf lib hl ha cfg o none e he _ _ (boxOf_paths w h v _ w' h' x y vw vh h1 h2 h3) _
    (boxOf_sizes w h v _ w' h' x y vw vh _ _ h1 h2 h3 q1 q2) (by simp) _ _ _ (List.mem_singleton.2 rfl) ?_ port hn hi
  have e0 : (Transform.identity * (⟨w' / vw, 0, 0, h' / vh, 0, 0⟩ : Transform)).m0 = w' / vw := by simp [Transform.identity]
  have e3 : (Transform.identity * (⟨w' / vw, 0, 0, h' / vh, 0, 0⟩ : Transform)).m3 = h' / vh := by simp [Transform.identity]
  refine ⟨by simp [Transform.identity], by simp [Transform.identity], by rw [e0, e3]; exact ⟨hx, hy⟩, cmds, [], c, r, by simp, hv,
    by simp [White], hcm, hc, hr, r0, r1, ?_⟩
  rw [e0, e3]
  norm_num at hd ⊢
  exact hd

/-- The sheet of A4 paper of Inkscape 0.91 (see C101): also with `f64` arithmetic a document with it and a quarter of a circle is
refused with a panic. -/
example (lib : Lib) (hl : FloatLib lib) (ha : FloatAngles lib) (cfg : Xy) (o : Options) (e : Rounded.Env)
    (he : ∀ pos rx ry a b rot, e.other pos (.arc rx ry a b rot) = Rounded.arcInfo double lib.sin lib.cos pos rx ry a b) (port : Port)
    (hn : 1 ≤ o.repeats.getD 1) (hi : 0 ≤ o.intensity.getD 5 ∧ o.intensity.getD 5 ≤ 100) :
    svgProgramF double lib cfg o none e (boxOf "210mm".toList "297mm".toList "0 0 744.09448819 1052.3622047".toList
      "M100,100A50,50,0,0,1,150,150".toList).events port = none := by
  obtain ⟨h1, h2, h3⟩ := page_lengths
  have hs : Separator [','] := .inr ⟨[], [], by simp [Blank], by simp [Blank], rfl⟩
  have v2 : ∀ a b, (two a b).Valid := fun a b => ⟨by simp [two], by simp [two]⟩
  have t50 : (two 5 0).value = 50 := by simp [two, Num.value, Sign.val, Digits.val]; norm_num [Nat.ofDigits]
  rw [← quarter_text]
  refine C108_view_box double C90_double lib hl ha _ _ _ _ _ _ _ _ _ h1 h2 h3 (by norm_num) (by norm_num) (by norm_num) (by norm_num)
    ⟨by norm_num [abs_of_pos], by norm_num [abs_of_pos]⟩ ⟨by norm_num [abs_of_pos], by norm_num [abs_of_pos]⟩ (by norm_num) (by norm_num)
    quarterCmds ?_ quarterCmds[1] (by simp [quarterCmds]) (.inr rfl) 50 ?_ (by norm_num) (by norm_num) ?_ cfg o e he port hn hi
  · intro c hc
    simp only [quarterCmds, List.mem_cons, List.not_mem_nil, or_false] at hc
    rcases hc with rfl | rfl
    · exact ⟨by simp [White], by decide, by simp [Blank], three_valid _ _ _, hs, three_valid _ _ _, trivial⟩
    · exact ⟨by simp [White], by decide, by simp [Blank], v2 _ _, hs, v2 _ _, hs, int_valid _, hs, int_valid _, hs, int_valid _, hs,
        three_valid _ _ _, hs, three_valid _ _ _, trivial⟩
  · refine ⟨[], 0, 0, 1, (three 1 5 0).value, (three 1 5 0).value, [], ?_, by simp⟩
    simp [quarterCmds, Args.values, NumList.values, t50, int_value]
  · norm_num [abs_of_pos, abs_of_neg, max_def]

end StepperPaths.Props
