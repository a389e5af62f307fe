import Mathlib.Algebra.BigOperators.Group.Finset.Basic
import Mathlib.Data.Finset.Prod
import Verif.Props.AnyPicture

/-!
C131: `image_raster` burns each pixel once in each of its lines, and so the laser has each power for the time that the picture asks for.

C127 says that whatever is burnt belongs to the picture, and that all of the picture is burnt; it would hold of a program that goes over some
pixels twice.
-/

namespace StepperPaths.Props
open Context Control Spec Proof IntegerCurve Rounded Config Raster StepperPaths.Cli

/-- Pixel `(x, y)` has to be burnt in line `rep` of its row. -/
def Dark (p : Params) (img : Image) (s : ℕ × ℕ × ℕ) : Prop :=
  s.1 < img.width ∧ s.2.1 < img.height ∧ s.2.2 < p.resY ∧ img.pixel s.1 s.2.1 < 255

/-- There is a timetable: the line `rep` of the pixel `(x, y)`, unless it is white, is burnt in the `resX` ticks from `start (x, y, rep)` on.
No two lines of pixels have a tick in common, and the laser is off at all other times. -/
structure BurnsOnce (p : Params) (img : Image) (es : List Event) (start : ℕ × ℕ × ℕ → ℕ) : Prop where
  burns : ∀ x y rep, Dark p img (x, y, rep) → ∃ ltr : Bool, ∀ q ≤ p.resX,
    (∀ w0, q < p.resX → weightAt w0 es (start (x, y, rep) + q) = Int.tdiv ((255 - (img.pixel x y : ℤ)) * p.weight) 256) ∧
    |posAt .y es (start (x, y, rep) + q) - (y * p.resY + rep) * p.stepY| ≤ 1 ∧
    |posAt .x es (start (x, y, rep) + q) - 2 * p.vX * (if ltr then (p.resX * x + q : ℤ) else (p.resX * (x + 1) - q : ℤ))| ≤ 1
  apart : ∀ s s', Dark p img s → Dark p img s' → s ≠ s' → start s + p.resX ≤ start s' ∨ start s' + p.resX ≤ start s
  only : ∀ w0 τ, weightAt w0 es τ ≠ 0 → ∃ s, Dark p img s ∧ start s ≤ τ ∧ τ < start s + p.resX

/-! ### Proofs -/

/-- When each line is played. -/
theorem scan_times {p : Params} {img : Image} {aMax vMax : Axis → ℤ} {es : List Event} {t T : ℕ} {ls : List ScanLine}
    (h : Scan p img aMax vMax es t ls T) (nd : (ls.map fun l => (l.y, l.rep)).Nodup) :
    ∃ A : ℕ × ℕ → ℕ, (∀ l ∈ ls, t ≤ A (l.y, l.rep) ∧ A (l.y, l.rep) + l.len * p.resX ≤ T ∧
        ∃ t0 b, LinePlayed p img aMax vMax es t0 (A (l.y, l.rep)) b l) ∧
      (∀ l ∈ ls, ∀ l' ∈ ls, (l.y, l.rep) ≠ (l'.y, l'.rep) →
        A (l.y, l.rep) + l.len * p.resX ≤ A (l'.y, l'.rep) ∨ A (l'.y, l'.rep) + l'.len * p.resX ≤ A (l.y, l.rep)) ∧
      ∀ w0 τ, t ≤ τ → τ < T → weightAt w0 es τ ≠ 0 → ∃ l ∈ ls, A (l.y, l.rep) ≤ τ ∧ τ < A (l.y, l.rep) + l.len * p.resX := by
  induction h with
  | nil => exact ⟨fun _ => 0, by simp, by simp, fun _ _ _ _ => by omega⟩
  | @cons t a b T l ls L S ih =>
    rw [List.map_cons, List.nodup_cons] at nd
    obtain ⟨A, h1, h2, h3⟩ := ih nd.2
    have hle := S.le
    have hlen := L.len
    have hmv := L.move
    have ne : ∀ l' ∈ ls, (l'.y, l'.rep) ≠ (l.y, l.rep) := fun l' hl' hc => nd.1 (hc ▸ List.mem_map_of_mem (f := fun l => (l.y, l.rep)) hl')
    have old : ∀ l' ∈ ls, Function.update A (l.y, l.rep) a (l'.y, l'.rep) = A (l'.y, l'.rep) := fun l' hl' =>
      Function.update_of_ne (ne l' hl') _ _
    have new : Function.update A (l.y, l.rep) a (l.y, l.rep) = a := Function.update_self _ _ _
    refine ⟨Function.update A (l.y, l.rep) a, ?_, ?_, ?_⟩
    · intro l' hl'
      rcases List.mem_cons.1 hl' with rfl | hl'
      · rw [new]
        exact ⟨by omega, by omega, t, b, L⟩
      · rw [old l' hl']
        obtain ⟨k1, k2, k3⟩ := h1 l' hl'
        exact ⟨by omega, k2, k3⟩
    · intro l1 hl1 l2 hl2 hne
      rcases List.mem_cons.1 hl1 with rfl | hl1' <;> rcases List.mem_cons.1 hl2 with rfl | hl2'
      · exact absurd rfl hne
      · rw [new, old l2 hl2']
        have := (h1 l2 hl2').1
        exact .inl (by omega)
      · rw [new, old l1 hl1']
        have := (h1 l1 hl1').1
        exact .inr (by omega)
      · rw [old l1 hl1', old l2 hl2']
        exact h2 l1 hl1' l2 hl2' hne
    · intro w0 τ k1 k2 hw
      by_cases hb : b ≤ τ
      · obtain ⟨l', hl', k⟩ := h3 w0 τ hb k2 hw
        exact ⟨l', .tail _ hl', by rw [old l' hl']; exact k⟩
      · refine ⟨l, .head _, ?_⟩
        rw [new]
        by_cases ha : τ < a
        · exact absurd (L.off w0 τ k1 ha) hw
        · omega

theorem rowPlan_nodup (p : Params) (img : Image) (y n : ℕ) : (rowPlan p img y n).Nodup := by
  unfold rowPlan
  rw [List.nodup_flatMap]
  constructor
  · intro y _
    exact List.Nodup.map (fun a b h => (Prod.mk.inj h).2) List.nodup_range
  · refine List.Pairwise.imp ?_ ((List.nodup_range' (step := 1)).filter _)
    intro a b hab x hx hx'
    obtain ⟨_, -, rfl⟩ := List.mem_map.1 hx
    obtain ⟨_, -, h⟩ := List.mem_map.1 hx'
    exact hab (Prod.mk.inj h).1.symm

/-- The place of a column in a line. -/
def ScanLine.place (l : ScanLine) (x : ℕ) : ℕ := if l.ltr then x - l.start else l.start + l.len - 1 - x

theorem place_lt {l : ScanLine} {x : ℕ} (h1 : l.start ≤ x) (h2 : x < l.start + l.len) :
    ScanLine.place l x < l.len ∧ l.column (ScanLine.place l x) = x := by
  unfold ScanLine.place ScanLine.column
  cases l.ltr <;> simp <;> omega

theorem column_place {l : ScanLine} {k : ℕ} (hk : k < l.len) : ScanLine.place l (l.column k) = k := by
  unfold ScanLine.place ScanLine.column
  cases l.ltr <;> simp
  omega

/-- C131: the scan, with any parameters, limits and pictures. -/
theorem C131_scan (p : Params) (img : Image) (hi : ∀ x y, img.pixel x y ≤ 255) (aMax vMax : Axis → ℤ) (hv : ∀ i, vMax i < 2 ^ 31)
    (res : 0 < p.resX) (hp : -2 ^ 31 ≤ p.vX ∧ p.vX < 2 ^ 31) (c : Ctx) (h : Checked.raster p img (Ctx.new aMax vMax) = some c) :
    ∃ start, BurnsOnce p img c.events start := by
  have ha : ∀ i, 0 ≤ aMax i := fun i => by
    by_contra hc
    rw [C126_scan aMax vMax i (not_le.1 hc)] at h
    cases h
  obtain ⟨ls, T, E, S, P, R, -, -, W, -, -⟩ := AnyScan.raster_spec (.of_raster ha hv h) res hp.1 hp.2 h
  have on : ∀ w0 τ, weightAt w0 c.events τ ≠ 0 → τ < T := fun w0 τ hw => by
    by_contra hc
    exact hw (W w0 τ (by omega))
  obtain ⟨A, A1, A2, A3⟩ := scan_times S (P ▸ rowPlan_nodup p img 0 img.height)
  have line : ∀ y rep, ∃ l : ScanLine, ∀ x, Dark p img (x, y, rep) →
      l ∈ ls ∧ l.y = y ∧ l.rep = rep ∧ l.start ≤ x ∧ x < l.start + l.len := by
    intro y rep
    by_cases hx : ∃ x, Dark p img (x, y, rep)
    · obtain ⟨x, hx, hy, hrep, hpix⟩ := hx
      simp only at hx hy hrep hpix
      have hm : (y, rep) ∈ rowPlan p img 0 img.height := by
        unfold rowPlan
        simp only [List.mem_flatMap, List.mem_filter, List.mem_range'_1, List.mem_map, List.mem_range,
          Prod.mk.injEq, List.any_eq_true, decide_eq_true_eq]
        exact ⟨y, ⟨⟨by omega, by omega⟩, x, hx, hpix⟩, rep, hrep, rfl, rfl⟩
      rw [← P, List.mem_map] at hm
      obtain ⟨l, hl, e⟩ := hm
      simp only [Prod.mk.injEq] at e
      obtain ⟨rfl, rfl⟩ := e
      refine ⟨l, fun x hd => ?_⟩
      obtain ⟨k1, k2⟩ := (R l hl).2.1 x hd.1 hd.2.2.2
      exact ⟨hl, rfl, rfl, k1, k2⟩
    · exact ⟨⟨0, 0, 0, 0, true⟩, fun x hd => absurd ⟨x, hd⟩ hx⟩
  choose l hl using line
  refine ⟨fun s => A s.2 + ScanLine.place (l s.2.1 s.2.2) s.1 * p.resX, fun x y rep hd => ?_, fun s s' hs hs' hne => ?_, fun w0 τ hw => ?_⟩
  · obtain ⟨k1, k2, k3, k4, k5⟩ := hl y rep x hd
    obtain ⟨m1, m2⟩ := place_lt k4 k5
    obtain ⟨-, -, t0, b, L⟩ := A1 _ k1
    rw [k2, k3] at L
    generalize ScanLine.place (l y rep) x = k at *
    have hend := column_end m1 (le_refl p.resX)
    have hlen := L.len
    refine ⟨(l y rep).ltr, fun q hq => ⟨fun w0 hq => ?_, ?_, ?_⟩⟩
    · simp only
      rw [Nat.add_assoc, L.on w0 k q m1 hq, m2, k2]
      rfl
    · have := L.ypos (A (y, rep) + k * p.resX + q) (by omega) (by omega)
      rw [k2, k3] at this
      exact this
    · have := L.xpos k q m1 hq
      rw [m2, ← Nat.add_assoc] at this
      exact this
  · obtain ⟨x, y, rep⟩ := s
    obtain ⟨x', y', rep'⟩ := s'
    obtain ⟨k1, k2, k3, k4, k5⟩ := hl y rep x hs
    obtain ⟨k1', k2', k3', k4', k5'⟩ := hl y' rep' x' hs'
    obtain ⟨m1, m2⟩ := place_lt k4 k5
    obtain ⟨m1', m2'⟩ := place_lt k4' k5'
    simp only
    by_cases e : (y, rep) = (y', rep')
    · cases e
      have hk : ScanLine.place (l y rep) x ≠ ScanLine.place (l y rep) x' := fun hc => hne (by rw [← m2, hc, m2'])
      generalize ScanLine.place (l y rep) x = k at *
      generalize ScanLine.place (l y rep) x' = k' at *
      rcases Nat.lt_or_gt_of_ne hk with hk | hk
      · have := Nat.mul_le_mul_right p.resX (Nat.succ_le_of_lt hk)
        rw [Nat.succ_mul] at this
        exact .inl (by omega)
      · have := Nat.mul_le_mul_right p.resX (Nat.succ_le_of_lt hk)
        rw [Nat.succ_mul] at this
        exact .inr (by omega)
    · have := A2 _ k1 _ k1' (by rw [k2, k3, k2', k3']; exact e)
      rw [k2, k3, k2', k3'] at this
      have g := column_end m1 (le_refl p.resX)
      have g' := column_end m1' (le_refl p.resX)
      rcases this with this | this
      · exact .inl (by omega)
      · exact .inr (by omega)
  · obtain ⟨l1, h1, h2, h3⟩ := A3 w0 τ (Nat.zero_le _) (on w0 τ hw) hw
    obtain ⟨r1, r2⟩ := R l1 h1
    have hm : (l1.y, l1.rep) ∈ rowPlan p img 0 img.height := P ▸ List.mem_map_of_mem h1
    unfold rowPlan at hm
    simp only [List.mem_flatMap, List.mem_filter, List.mem_range'_1, List.mem_map, List.mem_range, Prod.mk.injEq] at hm
    obtain ⟨y, ⟨⟨-, g1⟩, -⟩, r, g2, g3, g4⟩ := hm
    obtain ⟨-, -, t0, b, L⟩ := A1 l1 h1
    have wid := (r2.2 r1).1
    obtain ⟨d, hd⟩ : ∃ d, τ = A (l1.y, l1.rep) + d := ⟨τ - A (l1.y, l1.rep), by omega⟩
    have dk : d / p.resX < l1.len := by
      rw [Nat.div_lt_iff_lt_mul res]
      omega
    have dm := Nat.div_add_mod d p.resX
    have dq := Nat.mod_lt d res
    have hon := L.on w0 (d / p.resX) (d % p.resX) dk dq
    rw [Nat.mul_comm (d / p.resX), dm, ← hd] at hon
    have hcol : l1.start ≤ l1.column (d / p.resX) ∧ l1.column (d / p.resX) < l1.start + l1.len := by
      clear hon dm
      generalize d / p.resX = k at *
      unfold ScanLine.column
      split <;> omega
    have dark : Dark p img (l1.column (d / p.resX), l1.y, l1.rep) := by
      refine ⟨?_, ?_, ?_, ?_⟩
      · simp only
        omega
      · simp only
        omega
      · simp only
        omega
      · refine lt_of_le_of_ne (hi _ _) fun hc => hw ?_
        rw [hon, shade]
        simp only at hc
        simp [hc]
    refine ⟨_, dark, ?_⟩
    simp only
    obtain ⟨k1, k2, k3, k4, k5⟩ := hl _ _ _ dark
    have same : l l1.y l1.rep = l1 := by
      have nd : (ls.map fun l => (l.y, l.rep)).Nodup := P ▸ rowPlan_nodup p img 0 img.height
      exact List.inj_on_of_nodup_map nd k1 h1 (by rw [k2, k3])
    rw [same, column_place dk, Nat.mul_comm]
    omega

/-- C131: `image_raster` with any picture, options and configuration. -/
theorem C131_raster_events (fl : ℝ → ℝ) (cfg : Xy) (o : RasterNumbers) (img : Image) (hi : ∀ x y, img.pixel x y ≤ 255) (c : Ctx)
    (h : Special.rasterEvents fl cfg o img = some c) :
    ∃ start, BurnsOnce (Special.params fl cfg (Special.ask fl o img.width img.height) img.width img.height) img c.events start := by
  unfold Special.rasterEvents at h
  simp only at h
  obtain ⟨_, -, h⟩ := Option.bind_eq_some_iff.1 h
  exact C131_scan _ img hi _ _ (vLimit_lt fl cfg _) (resX_pos _ _ _ _ _) (asI32_lt _) c h

/-- C131: with a device. -/
theorem C131_raster (fl : ℝ → ℝ) (cfg : Xy) (o : RasterNumbers) (img : Image) (hi : ∀ x y, img.pixel x y ≤ 255) (pt pt' : Port)
    (h : Special.rasterAny fl cfg o img (some pt) = some (some pt')) :
    ∃ es start, Sent es pt pt' ∧
      BurnsOnce (Special.params fl cfg (Special.ask fl o img.width img.height) img.width img.height) img es start := by
  unfold Special.rasterAny at h
  obtain ⟨c, hc, h⟩ := Option.bind_eq_some_iff.1 h
  obtain ⟨_, -, h⟩ := Option.bind_eq_some_iff.1 h
  simp only at h
  obtain ⟨⟨r, q⟩, hr, h⟩ := Option.bind_eq_some_iff.1 h
  cases r with
  | error err => cases h
  | ok u =>
    cases h
    obtain ⟨start, k⟩ := C131_raster_events fl cfg o img hi c hc
    exact ⟨c.events, start, C35_accepted _ _ _ hr, k⟩

/-- C131: with any arguments and any files. -/
theorem C131_raster_command (fl : ℝ → ℝ) (w : World (Option Image)) (hw : ∀ file img, w.picture file = some (some img) → ∀ x y, img.pixel x y ≤ 255)
    (args : List Cli.Arg) (pt' : Port) (h : (rasterCommand (Special.rasterAny fl) w args).out = .done (some pt')) :
    ∃ dev pt es cfg o file img start, .device dev ∈ (rasterCommand (Special.rasterAny fl) w args).acts ∧ w.device dev = some pt ∧
      (∃ name, w.config name = some cfg) ∧ w.picture file = some (some img) ∧ Sent es pt pt' ∧
      BurnsOnce (Special.params fl cfg (Special.ask fl o img.width img.height) img.width img.height) img es start := by
  obtain ⟨dev, pt, cfg, o, file, img, h1, h2, h5, h6, h3, h4⟩ := rasterCommand_done h rasterAny_none
  obtain ⟨es, start, k1, k2⟩ := C131_raster fl cfg o img (hw file img h5) pt pt' h4
  exact ⟨dev, pt, es, cfg, o, file, img, start, h1, h2, h6, h5, k1, k2⟩

/-- The power with which a pixel is to be burnt. -/
def pixelPower (p : Params) (img : Image) (x y : ℕ) : ℤ := Int.tdiv ((255 - (img.pixel x y : ℤ)) * p.weight) 256

/-- C131: so the sum over all ticks of anything that depends on the power alone, and is zero when the laser is off, is the sum over the
pixels, each counted `resX * resY` times. -/
theorem C131_dose (p : Params) (img : Image) (hi : ∀ x y, img.pixel x y ≤ 255) (es : List Event) (start : ℕ × ℕ × ℕ → ℕ)
    (h : BurnsOnce p img es start) (w0 : ℤ) (N : ℕ) (hN : ∀ τ ≥ N, weightAt w0 es τ = 0) (g : ℤ → ℤ) (g0 : g 0 = 0) :
    ∑ τ ∈ Finset.range N, g (weightAt w0 es τ) =
      p.resX * p.resY * ∑ y ∈ Finset.range img.height, ∑ x ∈ Finset.range img.width, g (pixelPower p img x y) := by
  classical
  let D := ((Finset.range img.width) ×ˢ (Finset.range img.height) ×ˢ (Finset.range p.resY)).filter fun s => img.pixel s.1 s.2.1 < 255
  have hD : ∀ s, s ∈ D ↔ Dark p img s := fun s => by
    simp only [D, Finset.mem_filter, Finset.mem_product, Finset.mem_range, Dark]
    tauto
  have disj : Set.PairwiseDisjoint (D : Set (ℕ × ℕ × ℕ)) fun s => Finset.Ico (start s) (start s + p.resX) := by
    intro s hs s' hs' hne
    refine Finset.disjoint_left.2 fun τ h1 h2 => ?_
    rw [Finset.mem_Ico] at h1 h2
    have := h.apart s s' ((hD s).1 hs) ((hD s').1 hs') hne
    omega
  have on : ∀ s ∈ D, ∀ τ ∈ Finset.Ico (start s) (start s + p.resX), weightAt w0 es τ = pixelPower p img s.1 s.2.1 := by
    rintro ⟨x, y, rep⟩ hs τ hτ
    rw [Finset.mem_Ico] at hτ
    obtain ⟨_, k⟩ := h.burns x y rep ((hD _).1 hs)
    have := (k (τ - start (x, y, rep)) (by omega)).1 w0 (by omega)
    rw [show start (x, y, rep) + (τ - start (x, y, rep)) = τ by omega] at this
    exact this
  have left : ∑ τ ∈ Finset.range N, g (weightAt w0 es τ) =
      ∑ τ ∈ D.biUnion fun s => Finset.Ico (start s) (start s + p.resX), g (weightAt w0 es τ) := by
    rw [← Finset.sum_filter_of_ne (s := Finset.range N) (p := fun τ => weightAt w0 es τ ≠ 0)
        fun τ _ hτ hc => hτ (by rw [hc, g0]),
      ← Finset.sum_filter_of_ne (s := D.biUnion _) (p := fun τ => weightAt w0 es τ ≠ 0) fun τ _ hτ hc => hτ (by rw [hc, g0])]
    refine Finset.sum_congr (Finset.ext fun τ => ?_) fun _ _ => rfl
    rw [Finset.mem_filter, Finset.mem_filter, Finset.mem_biUnion, Finset.mem_range]
    constructor
    · rintro ⟨-, hw⟩
      obtain ⟨s, k1, k2, k3⟩ := h.only w0 τ hw
      exact ⟨⟨s, (hD s).2 k1, Finset.mem_Ico.2 ⟨k2, k3⟩⟩, hw⟩
    · rintro ⟨-, hw⟩
      refine ⟨?_, hw⟩
      by_contra hc
      exact hw (hN τ (by omega))
  rw [left, Finset.sum_biUnion disj]
  have each : ∀ s ∈ D, ∑ τ ∈ Finset.Ico (start s) (start s + p.resX), g (weightAt w0 es τ) = p.resX * g (pixelPower p img s.1 s.2.1) := by
    intro s hs
    rw [Finset.sum_congr rfl fun τ hτ => by rw [on s hs τ hτ]]
    simp
  rw [Finset.sum_congr rfl each, Finset.sum_filter_of_ne (p := fun s : ℕ × ℕ × ℕ => img.pixel s.1 s.2.1 < 255), Finset.sum_product,
    Finset.sum_comm, Finset.sum_product]
  · simp only [Finset.sum_const, Finset.card_range, nsmul_eq_mul, Finset.mul_sum]
    refine Finset.sum_congr rfl fun y _ => ?_
    refine Finset.sum_congr rfl fun x _ => ?_
    ring
  · rintro ⟨x, y, rep⟩ _ hs
    refine lt_of_le_of_ne (hi _ _) fun hc => hs ?_
    simp only at hc
    simp [pixelPower, hc, g0]

/-- C131: `image_raster`: for each power the number of ticks that the laser has it is the number of pixels with this power, times the number
of ticks and the number of lines of a pixel; and the sum of the powers over all ticks is that of the picture in the same way. -/
theorem C131_count (fl : ℝ → ℝ) (cfg : Xy) (o : RasterNumbers) (img : Image) (hi : ∀ x y, img.pixel x y ≤ 255)
    (hw : 0 ≤ Program.weightOf (o.intensity.getD 5)) (c : Ctx) (h : Special.rasterEvents fl cfg o img = some c) (w0 : ℤ) :
    let p := Special.params fl cfg (Special.ask fl o img.width img.height) img.width img.height
    (∀ w ≠ 0, ((Finset.range (duration c.events)).filter fun τ => weightAt w0 c.events τ = w).card =
      p.resX * p.resY * (((Finset.range img.height) ×ˢ (Finset.range img.width)).filter fun s => pixelPower p img s.2 s.1 = w).card) ∧
    ∑ τ ∈ Finset.range (duration c.events), weightAt w0 c.events τ =
      p.resX * p.resY * ∑ y ∈ Finset.range img.height, ∑ x ∈ Finset.range img.width, pixelPower p img x y := by
  intro p
  obtain ⟨start, k⟩ := C131_raster_events fl cfg o img hi c h
  obtain ⟨-, rest, -⟩ := C121_raster_events fl cfg o img hi c hw h
  have hN : ∀ τ ≥ duration c.events, weightAt w0 c.events τ = 0 := fun τ hτ => (rest τ hτ).1 w0
  refine ⟨fun w hw => ?_, C131_dose p img hi c.events start k w0 _ hN id rfl⟩
  have := C131_dose p img hi c.events start k w0 _ hN (fun v => if v = w then 1 else 0) (by simp [hw.symm])
  rw [Finset.card_filter, Finset.card_filter, Finset.sum_product]
  exact_mod_cast this

/-! ### Examples -/

/-- The sample picture: a black and a grey pixel, which are burnt for as many ticks as each other. -/
example : ∃ c, Special.rasterEvents double (sampleConfig 1) flatNumbers samplePicture = some c ∧
    ((Finset.range (duration c.events)).filter fun τ => weightAt 0 c.events τ = 11).card = 1 ∧
    ∑ τ ∈ Finset.range (duration c.events), weightAt 0 c.events τ = 16 := by
  obtain ⟨c, hc⟩ := flat_events
  refine ⟨c, hc, ?_⟩
  obtain ⟨h1, h2⟩ := C131_count double (sampleConfig 1) flatNumbers samplePicture sample_pixels (by decide) c hc 0
  have hp : Special.params double (sampleConfig 1) (Special.ask double flatNumbers samplePicture.width samplePicture.height) samplePicture.width
    samplePicture.height = ⟨1, 0, 1, 9830400, 12⟩ := flat_params
  rw [hp] at h1 h2
  rw [h1 11 (by decide), h2]
  constructor <;> decide

end StepperPaths.Props
