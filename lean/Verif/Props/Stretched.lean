import Verif.Props.SvgArc
import Verif.Props.RoundedSvg

/-! # C101: circles in documents with different scales -/

namespace StepperPaths.Props
open Coords Context Spec Draw Program Config Control StepperPaths.Svg Spec.Svg

/-! ### Segments stay in the list -/

theorem push_mem {seg seg' : Seg} {s : PathState} (h : seg ∈ s.segs) : seg ∈ (s.push seg').segs := by
  simp [PathState.push, h]

theorem lineLoop_mem (seg : Seg) (rel : Bool) (tr : Transform) : ∀ (args : List ℝ) (s : PathState), seg ∈ s.segs →
    seg ∈ (lineLoop rel tr args s).segs
  | [], _, h => h
  | [_], _, h => h
  | x :: y :: rest, s, h => by
    rw [lineLoop]
    exact lineLoop_mem seg rel tr rest _ (push_mem h)

theorem vertLoop_mem (seg : Seg) (rel : Bool) (tr : Transform) : ∀ (args : List ℝ) (s : PathState), seg ∈ s.segs →
    seg ∈ (vertLoop rel tr args s).segs
  | [], _, h => h
  | y :: rest, s, h => by
    rw [vertLoop]
    exact vertLoop_mem seg rel tr rest _ (push_mem h)

theorem horLoop_mem (seg : Seg) (rel : Bool) (tr : Transform) : ∀ (args : List ℝ) (s : PathState), seg ∈ s.segs →
    seg ∈ (horLoop rel tr args s).segs
  | [], _, h => h
  | y :: rest, s, h => by
    rw [horLoop]
    exact horLoop_mem seg rel tr rest _ (push_mem h)

theorem cubicLoop_mem (seg : Seg) (rel : Bool) (tr : Transform) (args : List ℝ) (s : PathState) (h : seg ∈ s.segs) :
    seg ∈ (cubicLoop rel tr args s).segs := by
  fun_induction cubicLoop rel tr args s with
  | case1 _ _ _ _ _ _ _ _ _ _ _ _ _ ih => exact ih (push_mem h)
  | case2 => exact h

theorem quadLoop_mem (seg : Seg) (rel : Bool) (tr : Transform) (args : List ℝ) (s : PathState) (h : seg ∈ s.segs) :
    seg ∈ (quadLoop rel tr args s).segs := by
  fun_induction quadLoop rel tr args s with
  | case1 _ _ _ _ _ _ _ _ _ _ _ ih => exact ih (push_mem h)
  | case2 => exact h

theorem arcLoop_mem (seg : Seg) (rel : Bool) (tr : Transform) (args : List ℝ) (s s' : PathState) (h : seg ∈ s.segs)
    (hr : arcLoop rel tr args s = some (.ok (), s')) : seg ∈ s'.segs := by
  fun_induction arcLoop rel tr args s with
  | case1 => simp at hr
  | case2 => simp at hr
  | case3 _ _ _ _ _ _ _ _ _ _ _ _ _ ih => exact ih (by exact push_mem h) hr
  | case4 => cases hr; exact h

theorem check_ok {n : ℕ} {args : List ℝ} {s s' : PathState} {b : Option Built} (h : checkArgs n args s b = some (.ok (), s')) :
    b = some (.ok (), s') := by
  unfold checkArgs at h
  split at h
  · simp at h
  · split at h
    · simp at h
    · exact h

theorem move_mem (seg : Seg) (rel first : Bool) (tr : Transform) (args : List ℝ) (s : PathState) (h : seg ∈ s.segs) :
    seg ∈ (moveCmd rel first tr args s).segs := by
  unfold moveCmd
  split
  · exact lineLoop_mem _ _ _ _ _ (push_mem h)
  · exact h

theorem buildPath_mem (seg : Seg) {cmd : Char} {args : List ℝ} {tr : Transform} {first : Bool} {s s' : PathState} (h : seg ∈ s.segs)
    (hr : buildPath cmd args tr first s = some (.ok (), s')) : seg ∈ s'.segs := by
  unfold buildPath at hr
  split at hr <;> try have hr := check_ok hr
  all_goals first
    | (cases hr; exact move_mem _ _ _ _ _ _ h)
    | (cases hr; exact lineLoop_mem _ _ _ _ _ h)
    | (cases hr; exact vertLoop_mem _ _ _ _ _ h)
    | (cases hr; exact horLoop_mem _ _ _ _ _ h)
    | (cases hr; exact cubicLoop_mem _ _ _ _ _ h)
    | (cases hr; exact quadLoop_mem _ _ _ _ _ h)
    | (exact arcLoop_mem _ _ _ _ _ _ h hr)
    | (cases hr; exact push_mem h)
    | (simp at hr)

theorem buildAll_mem (seg : Seg) {tr : Transform} : ∀ {cmds : List (Char × List ℝ)} {first : Bool} {s s' : PathState}, seg ∈ s.segs →
    buildAll tr first cmds s = some (.ok (), s') → seg ∈ s'.segs
  | [], _, _, _, h, hr => by cases hr; exact h
  | (cmd, args) :: rest, first, s, s', h, hr => by
    rw [buildAll] at hr
    split at hr
    · simp at hr
    · simp at hr
    · next h1 => exact buildAll_mem seg (buildPath_mem seg h h1) hr

/-! ### Ellipses are refused -/

/-- An arc with different half axes. -/
def Uneven (seg : Seg) : Prop := ∃ rx ry a b rot, seg = .arc rx ry a b rot ∧ 1 / 4503599627370496 < |rx - ry|

theorem run_uneven (e : Env) (v : ℝ) {seg : Seg} (hu : Uneven seg) : ∀ {segs : List Seg}, seg ∈ segs → ∀ s : Pen, s.run e v segs = none
  | seg' :: segs, h, s => by
    rw [Pen.run]
    rcases List.mem_cons.1 h with rfl | h
    · obtain ⟨rx, ry, a, b, rot, rfl, hd⟩ := hu
      simp only [Pen.step, C65_ellipse e s.current rx ry a b rot hd, Option.bind_eq_bind, Option.bind_none]
    · cases s.step e v seg' with
      | none => rfl
      | some s' => exact run_uneven e v hu h s'

/-- C101: whoever asks for an arc of an ellipse that is not a circle, anywhere in a path, gets a panic. -/
theorem C101_ellipse (e : Env) (c : Ctx) (v : ℝ) {seg : Seg} (hu : Uneven seg) {segs : List Seg} (h : seg ∈ segs) :
    drawCurves e c segs v = none := by
  unfold drawCurves
  rw [if_neg (by cases segs <;> simp_all), drawPen, run_uneven e v hu h]
  rfl

/-- C101: the same with rounded arithmetic, where the difference of the half axes is rounded. -/
theorem C101_ellipse_rounded (fl : ℝ → ℝ) (sn cs : ℝ → ℝ) (e : Rounded.Env)
    (ha : ∀ pos rx ry a b rot, e.other pos (.arc rx ry a b rot) = Rounded.arcInfo fl sn cs pos rx ry a b) (c : Ctx) (v : ℝ)
    {rx ry a b rot : ℝ} (hd : 1 / 4503599627370496 < |fl (rx - ry)|) {segs : List Seg} (h : .arc rx ry a b rot ∈ segs) :
    Rounded.drawCurves fl e c segs v = none := by
  have hr : ∀ {segs : List Seg}, .arc rx ry a b rot ∈ segs → ∀ s : Pen, Rounded.run fl e v segs s = none := by
    intro segs
    induction segs with
    | nil => simp
    | cons seg' segs ih =>
      intro h s
      rw [Rounded.run]
      rcases List.mem_cons.1 h with rfl | h
      · have : Rounded.arcInfo fl sn cs s.current rx ry a b = none := by
          unfold Rounded.arcInfo
          rw [if_pos (by norm_num at hd ⊢; exact hd)]
        simp only [Rounded.step, Rounded.segInfo, ha, this, Option.bind_eq_bind, Option.bind_none]
      · cases Rounded.step fl e v s seg' with
        | none => rfl
        | some s' => exact ih h s'
  unfold Rounded.drawCurves
  rw [if_neg (by cases segs <;> simp_all), Rounded.drawPen, hr h]
  rfl

theorem svgMain_uneven (cfg : Xy) (o : Options) (e : Env) {seg : Seg} (hu : Uneven seg) {segs : List Seg} (h : seg ∈ segs)
    (port : Port) (hn : 1 ≤ o.repeats.getD 1) (hp : 0 ≤ o.intensity.getD 5 ∧ o.intensity.getD 5 ≤ 100) :
    svgMain cfg o e segs port = none := by
  unfold svgMain
  simp only
  rw [if_neg (by omega)]
  have : ∃ k, (o.repeats.getD 1).toNat = k + 1 := ⟨(o.repeats.getD 1).toNat - 1, by omega⟩
  obtain ⟨k, hk⟩ := this
  have hd : ∀ (e : Env) (v : ℝ) (c : Ctx), drawTimes e segs v (k + 1) c = none := by
    intro e v c
    simp [drawTimes, C101_ellipse _ _ _ hu h]
  simp [svgEvents, hk, hd]

/-! ### Circles that become ellipses -/

/-- A point of an ellipse is between its half axes away from the center. -/
theorem ellipse_length {rx ry rot : ℝ} (hx : 0 < rx) (hy : 0 < ry) {p : Vec} (h : OnEllipse rx ry rot p) :
    min rx ry ≤ p.length ∧ p.length ≤ max rx ry := by
  unfold OnEllipse at h
  have hl : p.length ^ 2 = (p.x * Real.cos rot + p.y * Real.sin rot) ^ 2 + (-p.x * Real.sin rot + p.y * Real.cos rot) ^ 2 := by
    unfold Vec.length
    rw [Real.sq_sqrt (by nlinarith [sq_nonneg p.x, sq_nonneg p.y])]
    have := Real.sin_sq_add_cos_sq rot
    linear_combination (-(p.x ^ 2 + p.y ^ 2)) * this
  generalize p.x * Real.cos rot + p.y * Real.sin rot = a at *
  generalize -p.x * Real.sin rot + p.y * Real.cos rot = b at *
  have l0 : 0 ≤ p.length := Real.sqrt_nonneg _
  have ha : a ^ 2 = rx ^ 2 * (a / rx) ^ 2 := by field_simp
  have hb : b ^ 2 = ry ^ 2 * (b / ry) ^ 2 := by field_simp
  generalize a / rx = u at *
  generalize b / ry = w at *
  have m0 : 0 < min rx ry := lt_min hx hy
  have k1 : min rx ry ^ 2 ≤ rx ^ 2 := by gcongr; exact min_le_left _ _
  have k2 : min rx ry ^ 2 ≤ ry ^ 2 := by gcongr; exact min_le_right _ _
  have k3 : rx ^ 2 ≤ max rx ry ^ 2 := by gcongr; exact le_max_left _ _
  have k4 : ry ^ 2 ≤ max rx ry ^ 2 := by gcongr; exact le_max_right _ _
  constructor
  · apply le_of_sq_le_sq _ l0
    rw [hl, ha, hb]
    nlinarith [sq_nonneg u, sq_nonneg w]
  · apply le_of_sq_le_sq _ (le_max_of_le_left hx.le)
    rw [hl, ha, hb]
    nlinarith [sq_nonneg u, sq_nonneg w]

theorem circle_on {r rot : ℝ} (hr : 0 < r) {u : Vec} (hu : u.length = 1) : OnEllipse r r rot ⟨r * u.x, r * u.y⟩ := by
  have hl : u.x ^ 2 + u.y ^ 2 = 1 := by
    have : u.length ^ 2 = 1 := by rw [hu]; norm_num
    unfold Vec.length at this
    rw [Real.sq_sqrt (by nlinarith [sq_nonneg u.x, sq_nonneg u.y])] at this
    linarith
  unfold OnEllipse
  field_simp
  have := Real.sin_sq_add_cos_sq rot
  linear_combination (u.x ^ 2 + u.y ^ 2) * this + hl

/-- The transform scales some directions differently: circles of radius `r` become visible ellipses. -/
def Stretches (tr : Transform) (r : ℝ) : Prop :=
  ∃ u u' : Vec, u.length = 1 ∧ u'.length = 1 ∧
    1 / 4503599627370496 < r * |(tr.noTranslation * u).length - (tr.noTranslation * u').length|

theorem arcSeg_uneven {tr : Transform} {r rot : ℝ} (hr : 0 < r) (hs : Stretches tr r) {large sweep : Prop} {d : Vec} {seg : Seg}
    (h : arcSeg tr d ⟨r, r, rot, large, sweep⟩ = some (.ok seg)) : Uneven seg := by
  obtain ⟨u, u', hu, hu', hd⟩ := hs
  unfold arcSeg at h
  split at h
  · simp at h
  by_cases hm : tr.m0 * tr.m3 - tr.m2 * tr.m1 = 0
  · rw [C78_singular r r rot ⟨tr.m0, tr.m2, tr.m1, tr.m3⟩ hm] at h
    simp at h
  · obtain ⟨rx, ry, rot', e1, hx, hy, he⟩ := C78_image r r rot hr.ne' hr.ne' ⟨tr.m0, tr.m2, tr.m1, tr.m3⟩ hm
    rw [e1] at h
    simp only [Option.bind_some] at h
    split at h
    · simp at h
    · next p1 p2 _ =>
      simp only [Option.some.injEq, Except.ok.injEq] at h
      refine ⟨rx, ry, _, _, rot', h.symm, lt_of_lt_of_le hd ?_⟩
      have key : ∀ u : Vec, u.length = 1 → min rx ry ≤ r * (tr.noTranslation * u).length ∧ r * (tr.noTranslation * u).length ≤ max rx ry := by
        intro u hu
        have := ellipse_length hx hy ((he _).1 (circle_on (rot := rot) hr hu))
        have e : (⟨tr.m0 * (r * u.x) + tr.m2 * (r * u.y), tr.m1 * (r * u.x) + tr.m3 * (r * u.y)⟩ : Vec).length =
            r * (tr.noTranslation * u).length := by
          unfold Vec.length
          rw [← Real.sqrt_sq hr.le, ← Real.sqrt_mul (sq_nonneg r), Real.sqrt_sq hr.le]
          congr 1
          simp [Transform.noTranslation]
          ring
        rw [← e]
        exact this
      obtain ⟨a1, a2⟩ := key u hu
      obtain ⟨b1, b2⟩ := key u' hu'
      have e2 : ∀ z : ℝ, r * |z| = |r * z| := fun z => by rw [abs_mul, abs_of_pos hr]
      rw [e2, mul_sub]
      have : max rx ry - min rx ry = |rx - ry| := by rw [max_sub_min_eq_abs, abs_sub_comm]
      rw [← this, abs_le]
      constructor <;> linarith

/-- The arguments of an arc command contain those of a circle of radius `r`. -/
def HasCircle (r : ℝ) (args : List ℝ) : Prop :=
  ∃ pre rot large sweep x y post, args = pre ++ r :: r :: rot :: large :: sweep :: x :: y :: post ∧ 7 ∣ pre.length

theorem arcLoop_uneven {rel : Bool} {tr : Transform} {r : ℝ} (hr : 0 < r) (hs : Stretches tr r) :
    ∀ (args : List ℝ) (s s' : PathState), HasCircle r args → arcLoop rel tr args s = some (.ok (), s') → ∃ seg ∈ s'.segs, Uneven seg := by
  intro args s s' hc h
  fun_induction arcLoop rel tr args s with
  | case1 => simp at h
  | case2 => simp at h
  | case3 s rx ry rot large sweep x y rest a d seg hseg ih =>
    obtain ⟨pre, rot', large', sweep', x', y', post, he, h7⟩ := hc
    match pre, he, h7 with
    | [], he, _ =>
      simp only [List.nil_append, List.cons.injEq] at he
      obtain ⟨rfl, rfl, -⟩ := he
      exact ⟨seg, arcLoop_mem seg rel tr _ _ _ (by simp [PathState.push]) h, arcSeg_uneven hr hs hseg⟩
    | [_], _, h7 => simp at h7
    | [_, _], _, h7 => simp at h7
    | [_, _, _], _, h7 => simp at h7
    | [_, _, _, _], _, h7 => simp at h7
    | [_, _, _, _, _], _, h7 => simp at h7
    | [_, _, _, _, _, _], _, h7 => simp at h7
    | _ :: _ :: _ :: _ :: _ :: _ :: _ :: pre, he, h7 =>
      simp only [List.cons_append, List.cons.injEq] at he
      obtain ⟨-, -, -, -, -, -, -, rfl⟩ := he
      refine ih ⟨pre, rot', large', sweep', x', y', post, rfl, ?_⟩ h
      simp only [List.length_cons] at h7
      omega
  | case4 s args hne =>
    obtain ⟨pre, rot', large', sweep', x', y', post, rfl, h7⟩ := hc
    exfalso
    match pre with
    | [] => exact hne _ _ _ _ _ _ _ _ rfl
    | [_] => exact hne _ _ _ _ _ _ _ _ rfl
    | [_, _] => exact hne _ _ _ _ _ _ _ _ rfl
    | [_, _, _] => exact hne _ _ _ _ _ _ _ _ rfl
    | [_, _, _, _] => exact hne _ _ _ _ _ _ _ _ rfl
    | [_, _, _, _, _] => exact hne _ _ _ _ _ _ _ _ rfl
    | [_, _, _, _, _, _] => exact hne _ _ _ _ _ _ _ _ rfl
    | _ :: _ :: _ :: _ :: _ :: _ :: _ :: pre => exact hne _ _ _ _ _ _ _ _ rfl

theorem buildAll_uneven {tr : Transform} {r : ℝ} (hr : 0 < r) (hs : Stretches tr r) {cmd : Char} (hc : cmd = 'a' ∨ cmd = 'A')
    {args : List ℝ} (ha : HasCircle r args) : ∀ {cmds : List (Char × List ℝ)} {first : Bool} {s s' : PathState}, (cmd, args) ∈ cmds →
    buildAll tr first cmds s = some (.ok (), s') → ∃ seg ∈ s'.segs, Uneven seg
  | (cmd', args') :: rest, first, s, s', hm, h => by
    rw [buildAll] at h
    split at h
    · simp at h
    · simp at h
    · next h1 =>
      rcases List.mem_cons.1 hm with he | hm
      · cases he
        rw [build_arc hc] at h1
        obtain ⟨seg, k1, k2⟩ := arcLoop_uneven hr hs _ _ _ ha (check_ok h1)
        exact ⟨seg, buildAll_mem seg k1 h, k2⟩
      · exact buildAll_uneven hr hs hc ha hm h

theorem pathLoop_mem (seg : Seg) (tr : Transform) (first : Bool) (text : List Char) (s : PathState) (o : Outcome)
    (h : pathLoop tr first text s = some o) (hs : seg ∈ s.segs) : ∀ s', o = .done (.ok ()) s' → seg ∈ s'.segs := by
  revert hs
  refine pathLoop.partial_correctness tr (fun _ _ s o => seg ∈ s.segs → ∀ s', o = .done (.ok ()) s' → seg ∈ s'.segs) ?_ first text s o h
  intro loop ih first text s o h hs s' ho
  subst ho
  simp only at h
  split at h
  · cases h; exact hs
  · split at h
    · simp at h
    · split at h
      · simp at h
      · simp at h
      · next h1 => exact ih _ _ _ _ h (buildPath_mem seg hs h1) _ rfl

theorem drawPaths_mem (seg : Seg) : ∀ {l : List (Transform × List Char)} {s : PathState} {segs : List Seg}, seg ∈ s.segs →
    drawPaths l s = .ok segs → seg ∈ segs
  | [], _, _, hs, h => by cases h; exact hs
  | (t, d) :: l, s, segs, hs, h => by
    rw [drawPaths] at h
    split at h
    · next h1 => exact drawPaths_mem seg (pathLoop_mem seg _ _ _ _ _ h1 hs _ rfl) h
    · simp at h
    · simp at h

/-- A path with an arc of a circle in a place where circles become ellipses. -/
structure Circle (tr : Transform) (text : List Char) : Prop where
  ex : ∃ (cmds : List Cmd) (trail : List Char) (c : Cmd) (r : ℝ), text = pathText cmds ++ trail ∧ (∀ c ∈ cmds, c.Valid) ∧
    White trail ∧ c ∈ cmds ∧ (c.letter = 'a' ∨ c.letter = 'A') ∧ 0 < r ∧ HasCircle r (c.args.values.map fun q : ℚ => (q : ℝ)) ∧
    Stretches tr r

theorem drawPaths_uneven {tr : Transform} {text : List Char} (hc : Circle tr text) :
    ∀ {l : List (Transform × List Char)} {s : PathState} {segs : List Seg}, (tr, text) ∈ l → drawPaths l s = .ok segs →
    ∃ seg ∈ segs, Uneven seg
  | (t, d) :: l, s, segs, hm, h => by
    rw [drawPaths] at h
    split at h
    · next s' h1 =>
      rcases List.mem_cons.1 hm with he | hm
      · cases he
        obtain ⟨cmds, trail, c, r, rfl, hv, ht, hcm, hl, hr, ha, hs⟩ := hc.ex
        rw [C52_path cmds hv trail ht] at h1
        split at h1
        · simp at h1
        · next r0 s0 hb =>
          simp only [Option.some.injEq, Outcome.done.injEq] at h1
          obtain ⟨rfl, rfl⟩ := h1
          obtain ⟨seg, k1, k2⟩ := buildAll_uneven hr hs hl ha (List.mem_map.2 ⟨c, hcm, rfl⟩) hb
          exact ⟨seg, drawPaths_mem seg k1 h, k2⟩
      · exact drawPaths_uneven hc hm h
    · simp at h
    · simp at h

/-- **C101.**  A document with an arc of a circle in a place where the transforms and the view box do not scale all directions
alike is never burned: whatever the configuration, the options and the device are, the program panics before anything is sent. -/
theorem C101_stretched (cfg : Xy) (o : Options) (layer : Option (List Char)) (e : Env) (f : Forest) (l : List (Transform × List Char))
    (hf : f.paths (keepOf layer) .identity = some l) (tr : Transform) (text : List Char) (hm : (tr, text) ∈ l) (hc : Circle tr text)
    (port : Port) (hn : 1 ≤ o.repeats.getD 1) (hp : 0 ≤ o.intensity.getD 5 ∧ o.intensity.getD 5 ≤ 100) :
    svgProgram cfg o layer e f.events port = none := by
  unfold svgProgram
  simp only
  rw [if_neg (by omega), C48_paths _ _ _ _ hf]
  split
  · next path hp' =>
    simp only [Option.some.injEq] at hp'
    obtain ⟨seg, k1, k2⟩ := drawPaths_uneven hc hm hp'
    exact svgMain_uneven cfg o e k2 k1 port hn hp
  · rfl

/-- C101: the sizes of a document.  If the width and the height are not exactly in the ratio of those of the view box, the circles
of the document are ellipses. -/
theorem C101_view_box (w h v : List Char) (w' h' x y vw vh : ℚ) (h1 : parseLength w = some w') (h2 : parseLength h = some h')
    (h3 : parseViewBox v = some (x, y, vw, vh)) (cmds : List Cmd) (hv : ∀ c ∈ cmds, c.Valid) (c : Cmd) (hcm : c ∈ cmds)
    (hl : c.letter = 'a' ∨ c.letter = 'A') (r : ℝ) (hr : 0 < r) (ha : HasCircle r (c.args.values.map fun q : ℚ => (q : ℝ)))
    (hd : 1 / 4503599627370496 < r * |(|(w' / vw : ℝ)|) - (|(h' / vh : ℝ)|)|) (cfg : Xy) (o : Options) (e : Env) (port : Port)
    (hn : 1 ≤ o.repeats.getD 1) (hp : 0 ≤ o.intensity.getD 5 ∧ o.intensity.getD 5 ≤ 100) :
    svgProgram cfg o none e (boxOf w h v (pathText cmds)).events port = none := by
  refine C101_stretched cfg o none e _ _ (boxOf_paths w h v _ w' h' x y vw vh h1 h2 h3) _ _ (List.mem_singleton.2 rfl) ?_ port hn hp
  refine ⟨cmds, [], c, r, by simp, hv, by simp [White], hcm, hl, hr, ha, ⟨1, 0⟩, ⟨0, 1⟩, by simp [Vec.length], by simp [Vec.length], ?_⟩
  refine lt_of_lt_of_eq hd ?_
  simp [Vec.length, Transform.noTranslation, Transform.identity, ← pow_two, Real.sqrt_sq_eq_abs]

/-- `744.09448819` and `1052.3622047`, the size of a sheet of paper in pixels of 90 per inch. -/
def pageW : Num := ⟨.none, [7, 4, 4], some [0, 9, 4, 4, 8, 8, 1, 9], none⟩
def pageH : Num := ⟨.none, [1, 0, 5, 2], some [3, 6, 2, 2, 0, 4, 7], none⟩
def three (a b c : Fin 10) : Num := ⟨.none, [a, b, c], none, none⟩

theorem three_valid (a b c : Fin 10) : (three a b c).Valid := ⟨by simp [three], by simp [three]⟩

/-- `M100,100A50,50,0,0,1,150,150` -/
def quarterCmds : List Cmd :=
  [⟨[], 'M', .some [] (three 1 0 0) (.cons [','] (three 1 0 0) .nil)⟩,
   ⟨[], 'A', .some [] (two 5 0) (.cons [','] (two 5 0) (.cons [','] (int 0) (.cons [','] (int 0) (.cons [','] (int 1)
      (.cons [','] (three 1 5 0) (.cons [','] (three 1 5 0) .nil))))))⟩]

theorem quarter_text : pathText quarterCmds = "M100,100A50,50,0,0,1,150,150".toList := by decide

theorem page_lengths : parseLength "210mm".toList = some 210 ∧ parseLength "297mm".toList = some 297 ∧
    parseViewBox "0 0 744.09448819 1052.3622047".toList = some (0, 0, 744.09448819, 1052.3622047) := by
  have v210 : (three 2 1 0).value = 210 := by simp [three, Num.value, Sign.val, Digits.val]; norm_num [Nat.ofDigits]
  have v297 : (three 2 9 7).value = 297 := by simp [three, Num.value, Sign.val, Digits.val]; norm_num [Nat.ofDigits]
  have vw : pageW.value = 744.09448819 := by simp [pageW, Num.value, Sign.val, Digits.val]; norm_num [Nat.ofDigits]
  have vh : pageH.value = 1052.3622047 := by simp [pageH, Num.value, Sign.val, Digits.val]; norm_num [Nat.ofDigits]
  refine ⟨?_, ?_, ?_⟩
  · have := C80_length [] [] (by simp [Blank]) (by simp [Blank]) (three 2 1 0) (three_valid _ _ _) "mm" 1 (by simp [units]) []
    rw [v210, mul_one] at this
    exact (congrArg parseLength (by decide)).trans this
  · have := C80_length [] [] (by simp [Blank]) (by simp [Blank]) (three 2 9 7) (three_valid _ _ _) "mm" 1 (by simp [units]) []
    rw [v297, mul_one] at this
    exact (congrArg parseLength (by decide)).trans this
  · have hs : Separator [' '] := .inl ⟨by simp [Blank], by simp⟩
    have := C80_view_box [] (by simp [Blank]) (int 0) (int 0) pageW pageH (int_valid _) (int_valid _)
      ⟨by simp [pageW], by simp [pageW]⟩ ⟨by simp [pageH], by simp [pageH]⟩ [' '] [' '] [' '] hs hs hs [] (by simp)
    simp only [int_value, vw, vh] at this
    refine (congrArg parseViewBox (by decide)).trans (this.trans ?_)
    norm_num

/-- Inkscape 0.91 writes this size for a sheet of A4 paper: `width="210mm" height="297mm"` with
`viewBox="0 0 744.09448819 1052.3622047"`.  A document with it and a quarter of a circle is refused with a panic, though the
scales differ in the eleventh digit only. -/
example (cfg : Xy) (o : Options) (e : Env) (port : Port) (hn : 1 ≤ o.repeats.getD 1)
    (hp : 0 ≤ o.intensity.getD 5 ∧ o.intensity.getD 5 ≤ 100) :
    svgProgram cfg o none e (boxOf "210mm".toList "297mm".toList "0 0 744.09448819 1052.3622047".toList
      "M100,100A50,50,0,0,1,150,150".toList).events port = none := by
  obtain ⟨h1, h2, h3⟩ := page_lengths
  have hs : Separator [','] := .inr ⟨[], [], by simp [Blank], by simp [Blank], rfl⟩
  have v2 : ∀ a b, (two a b).Valid := fun a b => ⟨by simp [two], by simp [two]⟩
  have t50 : (two 5 0).value = 50 := by simp [two, Num.value, Sign.val, Digits.val]; norm_num [Nat.ofDigits]
  rw [← quarter_text]
  refine C101_view_box _ _ _ _ _ _ _ _ _ h1 h2 h3 quarterCmds ?_ quarterCmds[1] (by simp [quarterCmds]) (.inr rfl) 50 (by norm_num)
    ?_ ?_ cfg o e port hn hp
  · intro c hc
    simp only [quarterCmds, List.mem_cons, List.not_mem_nil, or_false] at hc
    rcases hc with rfl | rfl
    · exact ⟨by simp [White], by decide, by simp [Blank], three_valid _ _ _, hs, three_valid _ _ _, trivial⟩
    · exact ⟨by simp [White], by decide, by simp [Blank], v2 _ _, hs, v2 _ _, hs, int_valid _, hs, int_valid _, hs, int_valid _, hs,
        three_valid _ _ _, hs, three_valid _ _ _, trivial⟩
  · refine ⟨[], 0, 0, 1, ((three 1 5 0).value : ℚ), ((three 1 5 0).value : ℚ), [], ?_, by simp⟩
    simp [quarterCmds, Args.values, NumList.values, t50, int_value]
  · have p1 : (0 : ℝ) < (210 : ℚ) / (744.09448819 : ℚ) := by norm_num
    have p2 : (0 : ℝ) < (297 : ℚ) / (1052.3622047 : ℚ) := by norm_num
    rw [abs_of_pos p1, abs_of_pos p2]
    norm_num [abs_of_neg, abs_of_pos]

end StepperPaths.Props
