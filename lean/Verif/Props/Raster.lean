import Verif.Proof.Raster
import Verif.Proof.Draw
import Verif.Model.Config

/-! Properties of `image_raster`. -/

namespace StepperPaths.Props
open Context IntegerCurve Spec Raster Draw

/-! ### C56 -/

/-- C56: the interval contains all selected pixels of the row, begins and ends with one, and is
empty exactly when there is none. -/
theorem C56_row_interval (filter : Nat → Bool) (width start len : Nat)
    (h : findRowInterval filter width = (start, len)) :
    (∀ x < width, filter x = true → start ≤ x ∧ x < start + len) ∧
      (0 < len → start + len ≤ width ∧ filter start = true ∧ filter (start + len - 1) = true) ∧
      (len = 0 ↔ ∀ x < width, filter x = false) := findRowInterval_spec filter width start len h

/-- C56: so no shorter interval contains them all. -/
theorem C56_smallest (filter : Nat → Bool) (width start len : Nat)
    (h : findRowInterval filter width = (start, len)) (s n : Nat)
    (hs : ∀ x < width, filter x = true → s ≤ x ∧ x < s + n) (hlen : 0 < len) :
    s ≤ start ∧ start + len ≤ s + n := by
  obtain ⟨-, h2, -⟩ := findRowInterval_spec filter width start len h
  obtain ⟨k1, k2, k3⟩ := h2 hlen
  have := hs start (by omega) k2
  have := hs (start + len - 1) (by omega) k3
  omega

example : findRowInterval (fun x => x = 2 ∨ x = 5) 8 = (2, 4) := by
  simp [findRowInterval, scanUp, scanDown]

/-! ### C57 -/

/-- C57: a scan that returns plays a list of lines: the rows that are not white, from top to
bottom, each `resY` times, alternately from left to right and from right to left, each line just
wide enough for the pixels that are not white. `Scan` says what is played in a line. The laser is
off between the lines and after the last one, the limits are kept on the way back, and in the end
the head rests at the origin. -/
theorem C57_lines (p : Params) (img : Image) (aMax vMax : Axis → Int) (c' : Ctx)
    (a1 : ∀ i, 1 ≤ aMax i) (v1 : ∀ i, 1 ≤ vMax i) (v2 : ∀ i, vMax i ≤ 2 ^ 59) (res : 0 < p.resX)
    (step : |p.stepY| ≤ 2 ^ 28) (vx0 : -2 ^ 31 ≤ p.vX) (vx1 : p.vX < 2 ^ 31) (vxm : p.vX ≤ vMax .x)
    (hr : raster p img (Ctx.new aMax vMax) = some c') :
    ∃ ls T E, Scan p img aMax vMax c'.events 0 ls T ∧
      ls.map (fun l => (l.y, l.rep)) = rowPlan p img 0 img.height ∧
      (∀ l ∈ ls, 0 < l.len ∧ RowSpan img l.y l.start l.len) ∧
      (∀ k (hk : k < ls.length), ls[k].ltr = decide (k % 2 = 0)) ∧
      T < E ∧ (∀ w0 τ, T ≤ τ → weightAt w0 c'.events τ = 0) ∧
      (∀ i τ, T ≤ τ → |accAt i c'.events τ| ≤ aMax i ∧ |velAt i c'.events (τ + 1)| ≤ vMax i) ∧
      ∀ i τ, E ≤ τ → velAt i c'.events τ = 0 ∧ posAt i c'.events τ = 0 :=
  raster_spec a1 v1 v2 res step vx0 vx1 vxm hr

/-- In a scan each tick with a weight belongs to a pixel. -/
theorem scan_over {p : Params} {img : Image} {aMax vMax : Axis → Int} {es : List Event} {t T : Nat}
    {ls : List ScanLine} (h : Scan p img aMax vMax es t ls T) (res : 0 < p.resX) (w0 : Int) (τ : Nat)
    (h1 : t ≤ τ) (h2 : τ < T) (hw : weightAt w0 es τ ≠ 0) :
    ∃ l ∈ ls, ∃ x, l.start ≤ x ∧ x < l.start + l.len ∧ weightAt w0 es τ = shade p img x l.y ∧
      (∀ σ, σ = τ ∨ σ = τ + 1 → |posAt .y es σ - (l.y * p.resY + l.rep) * p.stepY| ≤ 1) ∧
      ∃ q : Nat, q < p.resX ∧
        ((|posAt .x es τ - 2 * p.vX * (p.resX * x + q)| ≤ 1 ∧
            |posAt .x es (τ + 1) - 2 * p.vX * (p.resX * x + q + 1)| ≤ 1) ∨
          (|posAt .x es τ - 2 * p.vX * (p.resX * x + q + 1)| ≤ 1 ∧
            |posAt .x es (τ + 1) - 2 * p.vX * (p.resX * x + q)| ≤ 1)) := by
  induction h with
  | nil => omega
  | @cons t a b T l ls L _ ih =>
    by_cases hb : b ≤ τ
    · obtain ⟨l', hl', r⟩ := ih hb h2
      exact ⟨l', List.mem_cons_of_mem _ hl', r⟩
    · by_cases ha : τ < a
      · exact absurd (L.off w0 τ h1 ha) hw
      · refine ⟨l, List.mem_cons_self .., ?_⟩
        have hlen := L.len
        obtain ⟨n, rfl⟩ := Nat.exists_eq_add_of_le (Nat.le_of_not_lt ha)
        have hk : n / p.resX < l.len := by
          rw [Nat.div_lt_iff_lt_mul res]
          omega
        have hj := Nat.mod_lt n res
        have hn : n / p.resX * p.resX + n % p.resX = n := Nat.div_add_mod' n p.resX
        have won := L.on w0 _ _ hk hj
        have x1 := L.xpos _ _ hk hj.le
        have x2 := L.xpos _ (n % p.resX + 1) hk hj
        rw [hn] at won x1
        rw [← Nat.add_assoc (n / p.resX * p.resX), hn] at x2
        generalize n / p.resX = k at *
        generalize n % p.resX = j at *
        refine ⟨l.column k, ?_, ?_, won, ?_, ?_⟩
        · unfold ScanLine.column
          split <;> omega
        · unfold ScanLine.column
          split <;> omega
        · rintro σ (rfl | rfl)
          · exact L.ypos _ (by omega) (by omega)
          · exact L.ypos _ (by omega) (by omega)
        · by_cases hl : l.ltr = true
          · rw [if_pos hl] at x1 x2
            refine ⟨j, hj, .inl ⟨x1, ?_⟩⟩
            rw [Nat.add_assoc]
            push_cast at x2
            rw [← add_assoc] at x2
            exact x2
          · rw [if_neg hl] at x1 x2
            refine ⟨p.resX - 1 - j, by omega, .inr ⟨?_, ?_⟩⟩
            · have e : ((p.resX - 1 - j : Nat) : Int) = p.resX - 1 - j := by omega
              rw [e]
              have e' : (p.resX * l.column k + (p.resX - 1 - j) + 1 : Int) =
                p.resX * (l.column k + 1) - j := by ring
              rw [e']
              exact x1
            · have e : ((p.resX - 1 - j : Nat) : Int) = p.resX - 1 - j := by omega
              rw [e, Nat.add_assoc]
              push_cast at x2
              have e' : (p.resX * l.column k + (p.resX - 1 - j) : Int) =
                p.resX * (l.column k + 1) - (j + 1) := by ring
              rw [e']
              exact x2

/-- C57: only the picture is burned. Whenever the laser is on there is a pixel whose weight it has,
and the head crosses the `q`-th of the `resX` parts of this pixel in one of its lines. -/
theorem C57_only (p : Params) (img : Image) (aMax vMax : Axis → Int) (c' : Ctx)
    (a1 : ∀ i, 1 ≤ aMax i) (v1 : ∀ i, 1 ≤ vMax i) (v2 : ∀ i, vMax i ≤ 2 ^ 59) (res : 0 < p.resX)
    (step : |p.stepY| ≤ 2 ^ 28) (vx0 : -2 ^ 31 ≤ p.vX) (vx1 : p.vX < 2 ^ 31) (vxm : p.vX ≤ vMax .x)
    (hr : raster p img (Ctx.new aMax vMax) = some c') (w0 : Int) (τ : Nat)
    (hw : weightAt w0 c'.events τ ≠ 0) :
    ∃ x y rep q : Nat, x < img.width ∧ y < img.height ∧ rep < p.resY ∧ q < p.resX ∧
      weightAt w0 c'.events τ = Int.tdiv ((255 - (img.pixel x y : Int)) * p.weight) 256 ∧
      (∀ σ, σ = τ ∨ σ = τ + 1 → |posAt .y c'.events σ - (y * p.resY + rep) * p.stepY| ≤ 1) ∧
      ((|posAt .x c'.events τ - 2 * p.vX * (p.resX * x + q)| ≤ 1 ∧
          |posAt .x c'.events (τ + 1) - 2 * p.vX * (p.resX * x + q + 1)| ≤ 1) ∨
        (|posAt .x c'.events τ - 2 * p.vX * (p.resX * x + q + 1)| ≤ 1 ∧
          |posAt .x c'.events (τ + 1) - 2 * p.vX * (p.resX * x + q)| ≤ 1)) := by
  obtain ⟨ls, T, E, S, P, R, -, -, W, -, -⟩ := raster_spec a1 v1 v2 res step vx0 vx1 vxm hr
  have hT : τ < T := by
    by_contra hc
    exact hw (W w0 τ (by omega))
  obtain ⟨l, hl, x, k1, k2, k3, k4, q, k5, k6⟩ := scan_over S res w0 τ (Nat.zero_le _) hT hw
  obtain ⟨r1, r2⟩ := R l hl
  have hm : (l.y, l.rep) ∈ rowPlan p img 0 img.height := P ▸ List.mem_map_of_mem hl
  unfold rowPlan at hm
  simp only [List.mem_flatMap, List.mem_filter, List.mem_range'_1, List.mem_map, List.mem_range,
    Prod.mk.injEq] at hm
  obtain ⟨y, ⟨⟨-, h1⟩, -⟩, r, h2, h3, h4⟩ := hm
  have := (r2.2 r1).1
  exact ⟨x, l.y, l.rep, q, by omega, by omega, by omega, k5, k3, k4, k6⟩

/-- In a scan each pixel of each line has its time. -/
theorem scan_pixel {p : Params} {img : Image} {aMax vMax : Axis → Int} {es : List Event} {t T : Nat}
    {ls : List ScanLine} (h : Scan p img aMax vMax es t ls T) (l : ScanLine) (hl : l ∈ ls) (x : Nat)
    (h1 : l.start ≤ x) (h2 : x < l.start + l.len) :
    ∃ u, t ≤ u ∧ u + p.resX ≤ T ∧ ∀ q ≤ p.resX,
      (∀ w0, q < p.resX → weightAt w0 es (u + q) = shade p img x l.y) ∧
      |posAt .y es (u + q) - (l.y * p.resY + l.rep) * p.stepY| ≤ 1 ∧
      |posAt .x es (u + q) - 2 * p.vX * (if l.ltr then (p.resX * x + q : Int) else
        (p.resX * (x + 1) - q : Int))| ≤ 1 := by
  induction h with
  | nil => simp at hl
  | @cons t a b T l' ls L S' ih =>
    have hle := S'.le
    have hlen := L.len
    have hmv := L.move
    rcases List.mem_cons.1 hl with rfl | hl
    · obtain ⟨k, hk, hx⟩ : ∃ k < l.len, l.column k = x := by
        unfold ScanLine.column
        cases l.ltr
        · exact ⟨l.start + l.len - 1 - x, by omega, by simp; omega⟩
        · exact ⟨x - l.start, by omega, by simp; omega⟩
      have hend := column_end hk (le_refl p.resX)
      refine ⟨a + k * p.resX, by omega, by omega, fun q hq => ⟨fun w0 hq => ?_, ?_, ?_⟩⟩
      · rw [Nat.add_assoc, L.on w0 k q hk hq, hx]
      · exact L.ypos _ (by omega) (by omega)
      · have := L.xpos k q hk hq
        rw [hx, ← Nat.add_assoc] at this
        exact this
    · obtain ⟨u, k1, k2, k3⟩ := ih hl
      exact ⟨u, by omega, by omega, k3⟩

/-- C57: the whole picture is burned. For each pixel that is not white and each of its `resY` lines
there are `resX` successive ticks in which the head crosses the pixel from one edge to the other in
this line with the weight of the pixel. -/
theorem C57_all (p : Params) (img : Image) (aMax vMax : Axis → Int) (c' : Ctx)
    (a1 : ∀ i, 1 ≤ aMax i) (v1 : ∀ i, 1 ≤ vMax i) (v2 : ∀ i, vMax i ≤ 2 ^ 59) (res : 0 < p.resX)
    (step : |p.stepY| ≤ 2 ^ 28) (vx0 : -2 ^ 31 ≤ p.vX) (vx1 : p.vX < 2 ^ 31) (vxm : p.vX ≤ vMax .x)
    (hr : raster p img (Ctx.new aMax vMax) = some c') (x y rep : Nat) (hx : x < img.width)
    (hy : y < img.height) (hrep : rep < p.resY) (hp : img.pixel x y < 255) :
    ∃ (u : Nat) (ltr : Bool), ∀ q ≤ p.resX,
      (∀ w0, q < p.resX → weightAt w0 c'.events (u + q) = Int.tdiv ((255 - (img.pixel x y : Int)) * p.weight) 256) ∧
      |posAt .y c'.events (u + q) - (y * p.resY + rep) * p.stepY| ≤ 1 ∧
      |posAt .x c'.events (u + q) - 2 * p.vX * (if ltr then (p.resX * x + q : Int) else
        (p.resX * (x + 1) - q : Int))| ≤ 1 := by
  obtain ⟨ls, T, E, S, P, R, -⟩ := raster_spec a1 v1 v2 res step vx0 vx1 vxm hr
  have hm : (y, rep) ∈ rowPlan p img 0 img.height := by
    unfold rowPlan
    simp only [List.mem_flatMap, List.mem_filter, List.mem_range'_1, List.mem_map, List.mem_range,
      Prod.mk.injEq, List.any_eq_true, decide_eq_true_eq]
    exact ⟨y, ⟨⟨by omega, by omega⟩, x, hx, hp⟩, rep, hrep, rfl, rfl⟩
  rw [← P, List.mem_map] at hm
  obtain ⟨l, hl, e⟩ := hm
  simp only [Prod.mk.injEq] at e
  obtain ⟨rfl, rfl⟩ := e
  obtain ⟨k1, k2⟩ := (R l hl).2.1 x hx hp
  obtain ⟨u, -, -, k⟩ := scan_pixel S l hl x k1 k2
  exact ⟨u, l.ltr, k⟩

/-- C57: the scan does not panic when the limits allow every change of speed and every way over the
picture within 65535 ticks, the picture is less than `2^32` steps wide and the scanning speed is
not negative and within the limits. -/
theorem C57_returns (p : Params) (img : Image) (aMax vMax : Axis → Int) (hM : Machine aMax vMax)
    (wx : 2 * p.vX * (img.width * p.resX : Nat) + 1 ≤ vMax .x * 65535)
    (wy : |p.stepY| * (img.height * p.resY : Nat) + 1 ≤ vMax .y * 65535)
    (lines : img.height * p.resY < 2 ^ 32) (res : 0 < p.resX) (ticks : img.width * p.resX < 2 ^ 31)
    (step : |p.stepY| ≤ 2 ^ 28) (vx0 : 0 ≤ p.vX) (vxm : p.vX ≤ vMax .x)
    (wide : 2 * p.vX * (img.width * p.resX : Nat) < 2 ^ 32) :
    ∃ c', raster p img (Ctx.new aMax vMax) = some c' :=
  raster_ok hM ⟨wx, wy, by norm_num at lines; exact lines⟩ res ticks step vx0 vxm wide

/-- C57 (finding): with a negative scanning speed, that is with a negative `steps_per_millimeter`
of the x axis, the program panics before it has moved at all. -/
theorem C57_negative (p : Params) (img : Image) (c : Ctx) (h0 : -2 ^ 31 ≤ p.vX) (h1 : p.vX < 0) :
    raster p img c = none := by
  by_contra hc
  obtain ⟨c', hr⟩ := Option.ne_none_iff_exists'.1 hc
  unfold raster at hr
  simp only at hr
  obtain ⟨_, e1, -⟩ := Option.bind_eq_some_iff.1 hr
  norm_num at h0
  have := (checks_eq e1 (by omega) (by omega)).1
  omega

/-- The limits of the sample configuration. -/
def sampleA : Axis → Int := fun _ => 30000
def sampleV : Axis → Int := fun _ => 384000

theorem sample_machine : Machine sampleA sampleV :=
  ⟨fun _ => by norm_num [sampleA], fun _ => by norm_num [sampleA], fun _ => by norm_num [sampleV], fun _ => by norm_num [sampleV],
    fun _ => by norm_num [sampleV, sampleA]⟩

/-- A picture of two rows. -/
def samplePicture : Image := ⟨4, 2, fun x y => if y = 0 then 255 else if x = 1 then 0 else if x = 3 then 128 else 255⟩
def sampleParams : Params := ⟨2, 150000, 1, 400000, 100⟩

-- pixel (3, 1) is burned with weight 49, and nothing but the second row is burned
example : ∃ c', raster sampleParams samplePicture (Ctx.new sampleA sampleV) = some c' ∧
    (∃ u, weightAt 7 c'.events u = 49 ∧ |posAt .y c'.events u - 400000| ≤ 1) ∧
    ∀ τ, weightAt 7 c'.events τ ≠ 0 → |posAt .y c'.events τ - 400000| ≤ 1 := by
  obtain ⟨c', hr⟩ := C57_returns sampleParams samplePicture sampleA sampleV sample_machine
    (by norm_num [sampleParams, samplePicture, sampleV]) (by norm_num [sampleParams, samplePicture, sampleV])
    (by norm_num [sampleParams, samplePicture]) (by norm_num [sampleParams])
    (by norm_num [sampleParams, samplePicture]) (by norm_num [sampleParams]) (by norm_num [sampleParams])
    (by norm_num [sampleParams, sampleV]) (by norm_num [sampleParams, samplePicture])
  have step : |sampleParams.stepY| ≤ 2 ^ 28 := by norm_num [sampleParams]
  have h0 : -2 ^ 31 ≤ sampleParams.vX := by norm_num [sampleParams]
  have h1 : sampleParams.vX < 2 ^ 31 := by norm_num [sampleParams]
  have h2 : sampleParams.vX ≤ sampleV .x := by norm_num [sampleParams, sampleV]
  have hv : ∀ i, sampleV i ≤ 2 ^ 59 := fun i => by norm_num [sampleV]
  refine ⟨c', hr, ?_, fun τ hτ => ?_⟩
  · obtain ⟨u, ltr, h⟩ := C57_all sampleParams samplePicture sampleA sampleV c' sample_machine.a1
      sample_machine.v1 hv (by decide) step h0 h1 h2 hr 3 1 0 (by decide) (by decide) (by decide)
      (by decide)
    obtain ⟨k1, k2, -⟩ := h 0 (by decide)
    exact ⟨u, by simpa [samplePicture, sampleParams] using k1 7 (by decide), by simpa [sampleParams] using k2⟩
  · obtain ⟨x, y, rep, q, hx, hy, hrep, hq, hw, k, -⟩ := C57_only sampleParams samplePicture sampleA sampleV c'
      sample_machine.a1 sample_machine.v1 hv (by decide) step h0 h1 h2 hr 7 τ hτ
    have hy' : y = 1 := by
      by_contra hc
      obtain rfl : y = 0 := by simp [samplePicture] at hy; omega
      rw [hw] at hτ
      simp [samplePicture] at hτ
    obtain rfl : rep = 0 := by simp [sampleParams] at hrep; omega
    subst hy'
    simpa [sampleParams] using k τ (.inl rfl)

end StepperPaths.Props
