import Verif.Proof.Polynom

/-! C82 and C83: the roots of polynomials. -/

namespace StepperPaths.Props
open Spec Polynom Set

/-- **C82.**  In exact arithmetic `find_single_root` returns, for every polynomial with a
coefficient and every interval: nothing when the values at the ends are both positive or both
negative, otherwise a number of the interval within `10 * EPSILON` of a root in the interval. -/
theorem C82_single (p : List ℝ) (hp : p ≠ []) (a b : ℝ) (hab : a ≤ b) :
    (findSingleRoot p p.length a b = some none ↔ 0 < polyFn p a * polyFn p b) ∧
    (polyFn p a * polyFn p b ≤ 0 → ∃ r, findSingleRoot p p.length a b = some (some r) ∧ r ∈ Icc a b ∧
      ∃ z ∈ Icc a b, polyFn p z = 0 ∧ |r - z| ≤ 10 / 2 ^ 52) := by
  have := findSingleRoot_spec (p := p) (List.length_pos_iff.2 hp) le_rfl hab
  rw [List.take_length] at this
  rcases this with ⟨h1, h2⟩ | ⟨h1, r, h2, h3, -, h4⟩
  · exact ⟨⟨fun _ => h1, fun _ => h2⟩, fun h => absurd h1 (not_lt.2 h)⟩
  · refine ⟨⟨fun h => ?_, fun h => absurd h (not_lt.2 h1)⟩, fun _ => ⟨r, h2, h3, h4⟩⟩
    rw [h2] at h
    simp at h

/-- The square root of two is found. -/
example : ∃ r, findSingleRoot [-2, 0, 1] 3 0 2 = some (some r) ∧ |r - √2| ≤ 10 / 2 ^ 52 := by
  have hF : ∀ t, polyFn [-2, 0, 1] t = t * t - 2 := by
    intro t
    simp only [polyFn_cons, polyFn_nil]
    ring
  obtain ⟨r, h1, -, z, h2, h3, h4⟩ := (C82_single [-2, 0, 1] (by simp) 0 2 (by norm_num)).2 (by
    rw [hF, hF]; norm_num)
  have : z = √2 := by
    rw [hF] at h3
    rw [← Real.sqrt_mul_self h2.1]
    congr 1
    linarith
  rw [this] at h4
  exact ⟨r, h1, h4⟩

/-- **C82.**  With `f64`s it never returns when the root is 16 or more: whatever the values `f` are
and however sums are rounded, the loop goes on forever when it is started with a negative value at
one end and one that is not negative at the other. -/
theorem C82_hangs (f rd : ℝ → ℝ) (hrd : Rounding rd) (low high : ℝ) (h1 : IsDouble low) (h2 : IsDouble high)
    (h3 : low ∈ Icc 16 (2 ^ 100)) (h4 : high ∈ Icc 16 (2 ^ 100)) (h5 : f low < 0) (h6 : 0 ≤ f high) :
    bisect f rd low high = none :=
  bisect_hangs hrd h1 h2 h3.1 h4.1 h3.2 h4.2 h5 h6

/-- `t - 17` on `16..=20`. -/
example : ∃ rd, Rounding rd ∧ bisect (fun t => t - 17) rd 16 20 = none := by
  obtain ⟨rd, h⟩ := exists_rounding
  refine ⟨rd, h, C82_hangs _ rd h 16 20 ⟨16, 0, by norm_num, by norm_num, by norm_num, by norm_num⟩
    ⟨20, 0, by norm_num, by norm_num, by norm_num, by norm_num⟩ ⟨by norm_num, by norm_num⟩ ⟨by norm_num, by norm_num⟩
    (by norm_num) (by norm_num)⟩

theorem reduce_pos {p : List ℝ} (h : ∃ c ∈ p, c ≠ 0) : ∀ m, reduce p p.length = some m → 0 < m := by
  intro m hm
  by_contra h0
  obtain rfl : m = 0 := by omega
  have key : ∀ n, n ≤ p.length → reduce p n = some 0 → ∀ k < n, p[k]? = some 0 := by
    intro n
    induction n with
    | zero => intro _ _ k hk; omega
    | succ n ih =>
      intro hn hr k hk
      have hg : p[n]? = some p[n] := List.getElem?_eq_getElem (by omega)
      rw [reduce, hg] at hr
      simp only [Option.bind_eq_bind, Option.bind_some] at hr
      by_cases hc : p[n] = 0
      · rw [if_pos hc] at hr
        rcases Nat.lt_succ_iff_lt_or_eq.1 hk with h | h
        · exact ih (by omega) hr k h
        · rw [h, hg, hc]
      · rw [if_neg hc] at hr
        simp at hr
  obtain ⟨c, hc, hc0⟩ := h
  obtain ⟨k, hk, rfl⟩ := List.mem_iff_getElem.1 hc
  have := key p.length le_rfl hm k hk
  rw [List.getElem?_eq_getElem hk, Option.some.injEq] at this
  exact hc0 this

/-- **C83.**  In exact arithmetic `real_roots` returns for every polynomial with at most 128
coefficients which are not all zero.  The roots lie in the range, are in order and more than
`10 * EPSILON` apart, there are at most as many as the degree, and each is within `10 * EPSILON` of
a root.  When the polynomial has opposite signs at the ends of the range there is at least one. -/
theorem C83_roots (p : List ℝ) (hp : ∃ c ∈ p, c ≠ 0) (hlen : p.length ≤ 128) (a b : ℝ) (hab : a ≤ b) :
    ∃ rs, realRoots p a b = some rs ∧ rs.length ≤ p.length - 1 ∧
      (∀ r ∈ rs, r ∈ Icc a b ∧ ∃ z ∈ Icc a b, polyFn p z = 0 ∧ |r - z| ≤ 10 / 2 ^ 52) ∧
      rs.Pairwise (fun x y => x + 10 / 2 ^ 52 < y) ∧
      (a < b → polyFn p a * polyFn p b < 0 → rs ≠ []) := by
  have hne : p ≠ [] := by rintro rfl; simp at hp
  obtain ⟨m, rs, h1, h2, -, h4⟩ := findRootsAt_spec (p.length + 1) p p.length a b (by omega) le_rfl hne hlen hab
  obtain ⟨m', e1, e2, -, -⟩ := reduce_spec p p.length le_rfl
  obtain rfl : m = m' := by rw [h1] at e1; simpa using e1
  have hf := h4 (reduce_pos hp m h1)
  rw [List.take_length] at hf
  exact ⟨rs, h2, hf.len.trans (by omega), hf.near, hf.apart, hf.sign⟩

/-- **C83.**  For the zero polynomial the result is the single root 0, in or out of the range. -/
theorem C83_zero (n : ℕ) (a b : ℝ) : realRoots (List.replicate (n + 1) 0) a b = some [0] := by
  have key : ∀ k ≤ n + 1, reduce (List.replicate (n + 1) 0) k = some 0 := by
    intro k
    induction k with
    | zero => exact fun _ => rfl
    | succ k ih =>
      intro hk
      rw [reduce, List.getElem?_replicate, if_pos (by omega)]
      simp only [Option.bind_eq_bind, Option.bind_some]
      rw [if_pos trivial, ih (by omega)]
  rw [realRoots, List.length_replicate, findRootsAt, key (n + 1) le_rfl]
  simp

/-- **C83.**  The roots of a polynomial of degree two are all found, up to `20 * EPSILON`. -/
theorem C83_quadratic (c0 c1 c2 a b : ℝ) (h2 : c2 ≠ 0) (hab : a < b) (z : ℝ) (hz : z ∈ Icc a b)
    (hroot : c0 + c1 * z + c2 * z ^ 2 = 0) :
    ∃ rs, realRoots [c0, c1, c2] a b = some rs ∧ ∃ r ∈ rs, |r - z| ≤ 20 / 2 ^ 52 := by
  have hF : ∀ t, polyFn [c0, c1, c2] t = c0 + c1 * t + c2 * t ^ 2 := by
    intro t
    simp only [polyFn_cons, polyFn_nil]
    ring
  set e := -(c1 / (2 * c2)) with he
  have hc1 : c1 = -2 * c2 * e := by rw [he]; field_simp
  -- the second root
  have hfac : ∀ t, polyFn [c0, c1, c2] t = c2 * (t - z) * (t - (2 * e - z)) := by
    intro t
    rw [hF]
    have : c0 = -(c1 * z + c2 * z ^ 2) := by linarith
    rw [this, hc1]
    ring
  have hd : Polynom.deriv [c0, c1, c2] = some [c1, 2 * c2, 0] := by
    simp [Polynom.deriv, derivFrom, asI8_small]
  have hred3 : reduce [c0, c1, c2] 3 = some 3 := by
    rw [reduce]
    simp [h2]
  have hred2 : reduce [c1, 2 * c2, 0] 2 = some 2 := by
    rw [reduce]
    simp [h2]
  set ext : List ℝ := if (c1 + 2 * c2 * a) * (c1 + 2 * c2 * b) < 0 then [e] else [] with hext
  have hextr : findRootsAt 3 [c1, 2 * c2, 0] 2 a b = some ext := by
    rw [findRootsAt, hred2]
    simp only [Option.bind_eq_bind, Option.bind_some, List.getElem?_cons_zero, List.getElem?_cons_succ]
    rw [hext]
    split <;> rfl
  have hins : e ∈ Ioo a b ↔ (c1 + 2 * c2 * a) * (c1 + 2 * c2 * b) < 0 := by
    have hsq : 0 < c2 * c2 := mul_self_pos.2 h2
    have heq : (c1 + 2 * c2 * a) * (c1 + 2 * c2 * b) = 4 * (c2 * c2) * ((a - e) * (b - e)) := by
      rw [hc1]; ring
    rw [heq]
    constructor
    · intro h
      have : (a - e) * (b - e) < 0 := mul_neg_of_neg_of_pos (by linarith [h.1]) (by linarith [h.2])
      nlinarith
    · intro h
      have : (a - e) * (b - e) < 0 := by
        by_contra hcon
        have := mul_nonneg hsq.le (not_lt.1 hcon)
        nlinarith
      constructor
      · by_contra hcon
        nlinarith [mul_nonneg (by linarith : 0 ≤ a - e) (by linarith : 0 ≤ b - e)]
      · by_contra hcon
        nlinarith [mul_nonneg (by linarith : 0 ≤ e - a) (by linarith : 0 ≤ e - b)]
  have hextl : ext.length ≤ 1 := by rw [hext]; split <;> simp
  have hmem : ∀ x ∈ ext, x ∈ Ioo a b := by
    intro x hx
    rw [hext] at hx
    split at hx
    · rename_i h
      rw [List.mem_singleton] at hx
      rw [hx]
      exact hins.2 h
    · simp at hx
  have hsort : ext.insertionSort (· ≤ ·) = ext := by
    rw [hext]; split <;> rfl
  obtain ⟨rs, g1, -, -, -, -, g6, -⟩ := rootLoop_spec (p := [c0, c1, c2]) (n := 3) (by norm_num) (by simp) b
    (ext ++ [b]) a [] (by
      rw [List.pairwise_cons, List.pairwise_append]
      refine ⟨?_, ?_, by simp, ?_⟩
      · intro x hx
        rw [List.mem_append, List.mem_singleton] at hx
        rcases hx with hx | rfl
        · exact (hmem x hx).1.le
        · exact hab.le
      · rw [hext]; split <;> simp
      · intro x hx y hy
        rw [List.mem_singleton] at hy
        rw [hy]
        exact (hmem x hx).2.le) (by
      intro x hx
      rw [List.mem_append, List.mem_singleton] at hx
      rcases hx with hx | rfl
      · exact (hmem x hx).2.le
      · exact le_rfl) (by simp) (by simp) (by simp; omega)
  rw [List.nil_append] at g1 g6
  have htake : ([c0, c1, c2] : List ℝ).take 3 = [c0, c1, c2] := rfl
  rw [htake] at g6
  refine ⟨rs, ?_, ?_⟩
  · rw [realRoots, List.length_cons, List.length_cons, List.length_cons, List.length_nil, findRootsAt, hred3]
    simp only [Option.bind_eq_bind, Option.bind_some, hd]
    rw [hextr]
    simp only [Option.bind_some]
    rw [if_pos (by simp; omega), hsort, g1]
  · -- a part of the range on one side of the extreme
    have part : ∀ l1 u v l2, a :: (ext ++ [b]) = l1 ++ u :: v :: l2 → u < v → z ∈ Icc u v →
        (e ≤ u ∨ v ≤ e) → ∃ r ∈ rs, |r - z| ≤ 20 / 2 ^ 52 := by
      intro l1 u v l2 hl huv hzu hside
      have hsq : 0 < c2 * c2 := mul_self_pos.2 h2
      have hsign : polyFn [c0, c1, c2] u * polyFn [c0, c1, c2] v ≤ 0 := by
        rw [hfac, hfac]
        have e1 : c2 * (u - z) * (u - (2 * e - z)) * (c2 * (v - z) * (v - (2 * e - z))) =
            c2 * c2 * (((z - u) * (v - z)) * -((u - (2 * e - z)) * (v - (2 * e - z)))) := by ring
        rw [e1]
        have k1 : 0 ≤ (z - u) * (v - z) := mul_nonneg (by linarith [hzu.1]) (by linarith [hzu.2])
        have k2 : 0 ≤ (u - (2 * e - z)) * (v - (2 * e - z)) := by
          rcases hside with h | h
          · exact mul_nonneg (by linarith [hzu.1]) (by linarith [hzu.1])
          · exact mul_nonneg_of_nonpos_of_nonpos (by linarith [hzu.2]) (by linarith [hzu.2])
        have := mul_nonneg k1 k2
        nlinarith
      obtain ⟨z1, hz1, hz0, r, hr, hrz⟩ := g6 l1 u v l2 hl huv hsign
      have hzz : z1 = z := by
        rw [hfac] at hz0
        rcases mul_eq_zero.1 hz0 with h | h
        · rcases mul_eq_zero.1 h with h | h
          · exact absurd h h2
          · linarith
        · rcases hside with h' | h' <;> linarith [hzu.1, hzu.2, hz1.1, hz1.2]
      rw [hzz] at hrz
      refine ⟨r, hr, hrz.trans (le_of_eq ?_)⟩
      unfold tolerance
      norm_num
    by_cases hin : e ∈ Ioo a b
    · have hext1 : ext = [e] := by rw [hext, if_pos (hins.1 hin)]
      rw [hext1] at part
      rcases le_total z e with h | h
      · exact part [] a e [b] rfl hin.1 ⟨hz.1, h⟩ (Or.inr le_rfl)
      · exact part [a] e b [] rfl hin.2 ⟨h, hz.2⟩ (Or.inl le_rfl)
    · have hext1 : ext = [] := by rw [hext, if_neg (fun h => hin (hins.2 h))]
      rw [hext1] at part
      refine part [] a b [] rfl hab hz ?_
      by_contra hcon
      rw [not_or, not_le, not_le] at hcon
      exact hin ⟨hcon.1, hcon.2⟩

/-- The golden ratio. -/
example : ∃ rs, realRoots [-1, -1, 1] 0 10 = some rs ∧ ∃ r ∈ rs, |r - (1 + √5) / 2| ≤ 20 / 2 ^ 52 := by
  have h5 : √5 * √5 = (5 : ℝ) := Real.mul_self_sqrt (by norm_num)
  have h0 := Real.sqrt_nonneg 5
  refine C83_quadratic (-1) (-1) 1 0 10 (by norm_num) (by norm_num) _ ⟨by linarith, by nlinarith⟩ ?_
  ring_nf
  nlinarith

/-- **C83.**  Of a polynomial of degree one, a root at an end of the range is not found. -/
theorem C83_linear_end (c0 c1 a b : ℝ) (h1 : c1 ≠ 0) (hz : c0 + c1 * a = 0 ∨ c0 + c1 * b = 0) :
    realRoots [c0, c1] a b = some [] := by
  have hred : reduce [c0, c1] 2 = some 2 := by rw [reduce]; simp [h1]
  rw [realRoots, List.length_cons, List.length_cons, List.length_nil, findRootsAt, hred]
  simp only [Option.bind_eq_bind, Option.bind_some, List.getElem?_cons_zero, List.getElem?_cons_succ]
  rw [if_neg]
  rcases hz with h | h <;> rw [h] <;> simp

example : realRoots [0, 1] 0 1 = some [] ∧ polyFn [0, 1] 0 = 0 := by
  refine ⟨C83_linear_end 0 1 0 1 one_ne_zero (by simp), ?_⟩
  simp [polyFn_cons, polyFn_nil]

/-- **C83.**  From degree three on a double root can be missed, because the extremes are only
approximated: `(t - 1/3)^2 (t - 5)` has a root in `0..=1`, but none is returned. -/
theorem C83_double_missed :
    realRoots [-5 / 9, 31 / 9, -17 / 3, 1] 0 1 = some [] ∧ polyFn [-5 / 9, 31 / 9, -17 / 3, 1] (1 / 3) = 0 := by
  have hF : ∀ t, polyFn [-5 / 9, 31 / 9, -17 / 3, 1] t = (t - 1 / 3) ^ 2 * (t - 5) := by
    intro t
    simp only [polyFn_cons, polyFn_nil]
    ring
  have hG : ∀ t, polyFn [31 / 9, -34 / 3, 3] t = (t - 1 / 3) * (3 * t - 31 / 3) := by
    intro t
    simp only [polyFn_cons, polyFn_nil]
    ring
  refine ⟨?_, by rw [hF]; norm_num⟩
  have hd : Polynom.deriv [-5 / 9, 31 / 9, -17 / 3, 1] = some [31 / 9, -34 / 3, 3, 0] := by
    simp [Polynom.deriv, derivFrom, asI8_small]
    norm_num
  have hdd : Polynom.deriv [31 / 9, -34 / 3, 3, 0] = some [-34 / 3, 6, 0, 0] := by
    simp [Polynom.deriv, derivFrom, asI8_small]
    norm_num
  have hred4 : reduce [-5 / 9, 31 / 9, -17 / 3, 1] 4 = some 4 := by rw [reduce]; simp
  have hred3 : reduce [31 / 9, -34 / 3, 3, 0] 3 = some 3 := by rw [reduce]; simp
  have hred2 : reduce [-34 / 3, 6, 0, 0] 2 = some 2 := by rw [reduce]; simp
  have h1 : findRootsAt 3 [-34 / 3, 6, 0, 0] 2 0 1 = some [] := by
    rw [findRootsAt, hred2]
    simp only [Option.bind_eq_bind, Option.bind_some, List.getElem?_cons_zero, List.getElem?_cons_succ]
    rw [if_neg (by norm_num)]
  -- the extreme is not hit
  obtain ⟨e, he, hes⟩ : ∃ e, findSingleRoot [31 / 9, -34 / 3, 3, 0] 3 0 1 = some (some e) ∧ e ∈ Icc 0 1 ∧
      e ≠ 1 / 3 := by
    rcases findSingleRoot_spec (p := [31 / 9, -34 / 3, 3, 0]) (n := 3) (by norm_num) (by simp)
      (show (0 : ℝ) ≤ 1 by norm_num) with ⟨h, -⟩ | ⟨-, e, k1, k2, k3, -⟩
    · rw [show ([31 / 9, -34 / 3, 3, 0] : List ℝ).take 3 = [31 / 9, -34 / 3, 3] from rfl, hG, hG] at h
      norm_num at h
    · refine ⟨e, k1, k2, ?_⟩
      rw [show ([31 / 9, -34 / 3, 3, 0] : List ℝ).take 3 = [31 / 9, -34 / 3, 3] from rfl, hG, hG, hG] at k3
      have := k3 (Or.inr (by norm_num))
      rintro rfl
      norm_num at this
  have h2 : findRootsAt 4 [31 / 9, -34 / 3, 3, 0] 3 0 1 = some [e] := by
    rw [findRootsAt, hred3]
    simp only [Option.bind_eq_bind, Option.bind_some, hdd, show 3 - 1 = 2 from rfl, h1]
    rw [if_pos (by simp)]
    simp only [List.insertionSort_nil, List.nil_append, rootLoop]
    rw [if_neg (by norm_num), if_pos (by norm_num), he]
    simp [pushRoot]
  obtain ⟨rs, g1, -, -, -, -, -, g7⟩ := rootLoop_spec (p := [-5 / 9, 31 / 9, -17 / 3, 1]) (n := 4) (by norm_num) (by simp) 1
    [e, 1] 0 [] (by simp; exact ⟨hes.1.1, hes.1.2⟩) (by simp; exact hes.1.2) (by simp) (by simp) (by simp)
  have hneg : ∀ u ∈ [0, e, 1], polyFn (([-5 / 9, 31 / 9, -17 / 3, 1] : List ℝ).take 4) u < 0 := by
    intro u hu
    rw [show ([-5 / 9, 31 / 9, -17 / 3, 1] : List ℝ).take 4 = [-5 / 9, 31 / 9, -17 / 3, 1] from rfl, hF]
    have h5 : u ≤ 1 ∧ u ≠ 1 / 3 := by
      simp only [List.mem_cons, List.not_mem_nil, or_false] at hu
      rcases hu with rfl | rfl | rfl
      · norm_num
      · exact ⟨hes.1.2, hes.2⟩
      · norm_num
    have : 0 < (u - 1 / 3) ^ 2 := by
      have : u - 1 / 3 ≠ 0 := sub_ne_zero.2 h5.2
      positivity
    nlinarith [h5.1]
  have hnil := g7 fun u hu v hv => mul_pos_of_neg_of_neg (hneg u hu) (hneg v hv)
  rw [hnil] at g1
  rw [realRoots, List.length_cons, List.length_cons, List.length_cons, List.length_cons, List.length_nil, findRootsAt, hred4]
  simp only [Option.bind_eq_bind, Option.bind_some, hd, show 4 - 1 = 3 from rfl, h2]
  rw [if_pos (by simp)]
  simpa using g1

/-- `(i + 1) as i8` is wrong from `i = 127` on. -/
example : asI8 127 = 127 ∧ asI8 128 = -128 := by decide

end StepperPaths.Props
