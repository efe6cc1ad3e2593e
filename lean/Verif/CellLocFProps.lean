import Verif.CellLocF
import Verif.RoundingCalc
import Verif.CellLocProps
import Mathlib.Topology.Order.IntermediateValue
import Mathlib.Topology.Instances.Real.Lemmas

/-!
# C227: the location in a cell in floating-point arithmetic
-/

namespace Xoa

/-- the same cell, with real coordinates -/
def CellQ.real (k : CellQ) : Cell := ⟨k.x1, k.x2, k.x3, k.x4, k.y1, k.y2, k.y3, k.y4⟩

/-- the square root of float64, as the IEEE 754 standard asks for: the result is a float64 number and none is closer to the exact square root -/
def IeeeSqrt (sq : ℚ → ℚ) : Prop :=
  ∀ x : ℚ, 0 ≤ x → fl64 (sq x) = sq x ∧ ∀ y : ℚ, fl64 y = y → |(sq x : ℝ) - √(x : ℝ)| ≤ |(y : ℝ) - √(x : ℝ)|

/-! ## Rectangles -/

/-- the number `x'` is `x` with a relative error of at most `e` -/
def RelClose (e x x' : ℚ) : Prop := ∃ d, |d| ≤ e ∧ x' = x * (1 + d)

theorem bound_mul {u : ℚ} (hu0 : 0 ≤ u) (hu : u ≤ 1 / 128) (N e d : ℚ) (_hN : 0 ≤ N) (he : |e - 1| ≤ N * u) (hN' : N ≤ 10) (hd : |d| ≤ u) : |e * (1 + d) - 1| ≤ (N + 1 + 1 / 10) * u := by
  have : e * (1 + d) - 1 = (e - 1) + d + (e - 1) * d := by ring
  rw [this]
  have k := abs_mul_le he hd
  have k' : N * u * u ≤ 1 / 10 * u := by
    have : N * u ≤ 10 * u := mul_le_mul_of_nonneg_right hN' hu0
    nlinarith
  have := abs_add_le ((e - 1) + d) ((e - 1) * d)
  have := abs_add_le (e - 1) d
  linarith

theorem bound_div {u : ℚ} (hu0 : 0 ≤ u) (hu : u ≤ 1 / 128) (N e d : ℚ) (hN : 0 ≤ N) (he : |e - 1| ≤ N * u) (hN' : N ≤ 10) (hd : |d| ≤ u) : |e / (1 + d) - 1| ≤ (N + 1 + 1 / 5) * u := by
  have hd' := abs_le.1 hd
  have hp : 0 < 1 + d := by linarith
  have e1 : e / (1 + d) - 1 = ((e - 1) - d) / (1 + d) := by field_simp; ring
  rw [e1, abs_div, abs_of_pos hp, div_le_iff₀ hp]
  have k := abs_sub (e - 1) d
  have k2 : (N + 1 + 1 / 5) * u * (1 - u) ≤ (N + 1 + 1 / 5) * u * (1 + d) := by
    apply mul_le_mul_of_nonneg_left (by linarith)
    exact mul_nonneg (by linarith) hu0
  have k3 : (N + 1) * u ≤ (N + 1 + 1 / 5) * u * (1 - u) := by
    have : (N + 1 + 1 / 5) * u * (1 - u) - (N + 1) * u = u * (1 / 5 - (N + 1 + 1 / 5) * u) := by ring
    have h1 : (N + 1 + 1 / 5) * u ≤ 56 / 5 * (1 / 128) := mul_le_mul (by linarith) hu hu0 (by norm_num)
    have := mul_nonneg hu0 (show (0 : ℚ) ≤ 1 / 5 - (N + 1 + 1 / 5) * u by linarith)
    linarith
  linarith

theorem loc_alg (X w ht d1 d2 d3 d4 d5 d6 d7 : ℚ) (hw : w ≠ 0) (hh : ht ≠ 0) (h4 : 1 + d4 ≠ 0) (h5 : 1 + d5 ≠ 0) (h6 : 1 + d6 ≠ 0) :
    -(ht * (X * (1 + d1)) * (1 + d2) * (1 + d3)) / (-(w * (1 + d4) * ht * (1 + d5)) * (1 + d6)) * (1 + d7) =
      X / w * (1 + ((1 + d1) * (1 + d2) * (1 + d3) * (1 + d7) / (1 + d4) / (1 + d5) / (1 + d6) - 1)) := by
  field_simp
  ring

/-- **C227** (rectangles). In a rectangle, whose height is exact, the location of any target is right: each of its two coordinates has a relative error of at most `10 u`. -/
theorem C227_rectangle_partial {fl : ℚ → ℚ} {u : ℚ} (h : Rounds fl u) (hu : u ≤ 1 / 128) (sq : ℚ → ℚ) (x0 y0 w ht x y : ℚ) (hw : w ≠ 0) (hh : ht ≠ 0)
    (rx : fl (-x0) = -x0) (ry : fl (-y0) = -y0) (rh : fl ht = ht) :
    ∃ p q, cell2rellocF fl sq ⟨x0, x0, x0 + w, x0 + w, y0, y0 + ht, y0 + ht, y0⟩ x y = .ok (some (p, q)) ∧
      RelClose (10 * u) ((x - x0) / w) p ∧ RelClose (10 * u) ((y - y0) / ht) q := by
  have z := h.zero
  have hc : coefF fl ⟨x0, x0, x0 + w, x0 + w, y0, y0 + ht, y0 + ht, y0⟩ x y = ⟨fl w, 0, 0, 0, ht, 0, fl (x - x0), fl (y - y0)⟩ := by
    unfold coefF
    simp only [sub_self, z, zero_sub, rx, add_sub_cancel_left, rh, neg_add_cancel, show ht - (y0 + ht) = -y0 by ring, ry]
  have hfw : fl w ≠ 0 := fun e => hw ((h.eq_zero_iff w).1 e)
  have hBB : CoefF.BB fl ⟨fl w, 0, 0, 0, ht, 0, fl (x - x0), fl (y - y0)⟩ = fl (- fl (fl w * ht)) := by
    simp [CoefF.BB, z]
  have hCC : CoefF.CC fl ⟨fl w, 0, 0, 0, ht, 0, fl (x - x0), fl (y - y0)⟩ = fl (fl (ht * fl (x - x0))) := by
    simp [CoefF.CC, z]
  have hAA : CoefF.AA fl ⟨fl w, 0, 0, 0, ht, 0, fl (x - x0), fl (y - y0)⟩ = 0 := by
    simp [CoefF.AA, z]
  have hBne : fl (- fl (fl w * ht)) ≠ 0 := by
    intro e
    rw [h.eq_zero_iff, neg_eq_zero, h.eq_zero_iff] at e
    rcases mul_eq_zero.1 e with e | e
    · exact hfw e
    · exact hh e
  have hq : ∀ p, CoefF.q fl ⟨fl w, 0, 0, 0, ht, 0, fl (x - x0), fl (y - y0)⟩ p = .ok (fl (fl (fl (y - y0)) / ht)) := by
    intro p
    have : ¬ (0 : ℚ) > smallF := by norm_num [smallF]
    simp [CoefF.q, z, divFl, rh, hh, this]
  refine ⟨fl (-fl (fl (ht * fl (x - x0))) / fl (- fl (fl w * ht))), fl (fl (fl (y - y0)) / ht), ?_, ?_, ?_⟩
  · unfold cell2rellocF
    rw [hc]
    have hr : ∀ s, CoefF.roots fl ⟨fl w, 0, 0, 0, ht, 0, fl (x - x0), fl (y - y0)⟩ s =
        .ok (some (fl (-fl (fl (ht * fl (x - x0))) / fl (- fl (fl w * ht))), fl (-fl (fl (ht * fl (x - x0))) / fl (- fl (fl w * ht))))) := by
      intro s
      unfold CoefF.roots
      rw [hAA, hBB, hCC, if_pos (by norm_num [smallF])]
      unfold divFl
      rw [if_neg hBne]
      rfl
    rw [hr]
    simp only [Except.bind, Option.elim_some]
    unfold CoefF.select
    rw [hq]
    simp only [Except.bind, Except.map, ite_self]
  · obtain ⟨d1, b1, e1⟩ := h.delta (x - x0)
    obtain ⟨d2, b2, e2⟩ := h.delta (ht * fl (x - x0))
    obtain ⟨d3, b3, e3⟩ := h.delta (fl (ht * fl (x - x0)))
    obtain ⟨d4, b4, e4⟩ := h.delta w
    obtain ⟨d5, b5, e5⟩ := h.delta (fl w * ht)
    obtain ⟨d6, b6, e6⟩ := h.delta (- fl (fl w * ht))
    obtain ⟨d7, b7, e7⟩ := h.delta (-fl (fl (ht * fl (x - x0))) / fl (- fl (fl w * ht)))
    have hu0 := h.nonneg
    have n : ∀ d, |d| ≤ u → 1 + d ≠ 0 := by
      intro d hd
      have := (abs_le.1 hd).1
      intro e
      linarith
    refine ⟨(1 + d1) * (1 + d2) * (1 + d3) * (1 + d7) / (1 + d4) / (1 + d5) / (1 + d6) - 1, ?_, ?_⟩
    · have k1 : |(1 + d1) - 1| ≤ 1 * u := by simpa using b1
      have k2 := bound_mul hu0 hu 1 _ d2 (by norm_num) k1 (by norm_num) b2
      have k3 := bound_mul hu0 hu _ _ d3 (by norm_num) k2 (by norm_num) b3
      have k4 := bound_mul hu0 hu _ _ d7 (by norm_num) k3 (by norm_num) b7
      have k5 := bound_div hu0 hu _ _ d4 (by norm_num) k4 (by norm_num) b4
      have k6 := bound_div hu0 hu _ _ d5 (by norm_num) k5 (by norm_num) b5
      have k7 := bound_div hu0 hu _ _ d6 (by norm_num) k6 (by norm_num) b6
      refine k7.trans ?_
      nlinarith
    · rw [e7, e6, e3, e2, e5, e4, e1]
      exact loc_alg _ _ _ _ _ _ _ _ _ _ hw hh (n d4 b4) (n d5 b5) (n d6 b6)
  · obtain ⟨d1, b1, e1⟩ := h.delta (y - y0)
    obtain ⟨d2, b2, e2⟩ := h.delta (fl (y - y0))
    obtain ⟨d3, b3, e3⟩ := h.delta (fl (fl (y - y0)) / ht)
    have hu0 := h.nonneg
    refine ⟨(1 + d1) * (1 + d2) * (1 + d3) - 1, ?_, ?_⟩
    · have k : |d1 * d2| ≤ u * u := abs_mul_le b1 b2
      have k2 : |(d1 + d2 + d1 * d2) * d3| ≤ (u + u + u * u) * u := by
        refine abs_mul_le ?_ b3
        have := abs_add_le (d1 + d2) (d1 * d2)
        have := abs_add_le d1 d2
        linarith
      have : (1 + d1) * (1 + d2) * (1 + d3) - 1 = d1 + d2 + d1 * d2 + d3 + (d1 + d2 + d1 * d2) * d3 := by ring
      rw [this]
      have a1 := abs_add_le (d1 + d2 + d1 * d2 + d3) ((d1 + d2 + d1 * d2) * d3)
      have a2 := abs_add_le (d1 + d2 + d1 * d2) d3
      have a3 := abs_add_le (d1 + d2) (d1 * d2)
      have a4 := abs_add_le d1 d2
      have uu : u * u ≤ u := by nlinarith
      have u3 : (u + u + u * u) * u ≤ 3 * u := by nlinarith
      linarith
    · rw [e3, e2, e1]
      field_simp
      ring

/-! ## Cells that are not quite parallelograms -/

theorem float_grid (s : ℚ) (k : ℤ) (h0 : (2 : ℚ) ^ k ≤ s) (h1 : s < 2 ^ (k + 1)) (hs : fl64 s = s) : ∃ n : ℤ, s = n * 2 ^ (k - 52) := by
  have hp : (0 : ℚ) < 2 ^ k := zpow_pos (by norm_num) _
  have e := rne_eq 53 s k (by rw [abs_of_pos (by linarith)]; exact h0) (by rw [abs_of_pos (by linarith)]; exact h1)
  refine ⟨rneInt (s / 2 ^ (k + 1 - ((53 : ℕ) : ℤ))), ?_⟩
  have e' : k + 1 - ((53 : ℕ) : ℤ) = k - 52 := by push_cast; ring
  rw [e'] at e ⊢
  exact hs.symm.trans e

/-- the square root of `4^k (1 + 2^-52)` is `2^k` -/
theorem sqrt_near {sq : ℚ → ℚ} (hs : IeeeSqrt sq) (k : ℕ) (hf : fl64 ((2 : ℚ) ^ k) = 2 ^ k) : sq (4 ^ k * (1 + 1 / 2 ^ 52)) = 2 ^ k := by
  obtain ⟨h1, h2⟩ := hs (4 ^ k * (1 + 1 / 2 ^ 52)) (by positivity)
  set s := sq (4 ^ k * (1 + 1 / 2 ^ 52)) with hs'
  have h3 := h2 _ hf
  set v : ℝ := 2 ^ k with hv
  have v0 : 0 < v := by positivity
  have er : (((4 ^ k * (1 + 1 / 2 ^ 52) : ℚ)) : ℝ) = v ^ 2 * (1 + 1 / 2 ^ 52) := by
    push_cast
    rw [hv, ← pow_mul, mul_comm k 2, pow_mul]
    norm_num
  have ev : (((2 : ℚ) ^ k : ℚ) : ℝ) = v := by push_cast; rfl
  rw [er, ev] at h3
  have r1 : v ≤ √(v ^ 2 * (1 + 1 / 2 ^ 52)) := by
    apply Real.le_sqrt_of_sq_le
    nlinarith
  have r2 : √(v ^ 2 * (1 + 1 / 2 ^ 52)) < v * (1 + 1 / 2 ^ 53) := by
    apply (Real.sqrt_lt' (by positivity)).2
    rw [mul_pow]
    apply mul_lt_mul_of_pos_left _ (by positivity)
    norm_num
  set r := √(v ^ 2 * (1 + 1 / 2 ^ 52)) with hr
  rw [abs_of_nonpos (show v - r ≤ 0 by linarith), abs_le] at h3
  have l1 : v ≤ (s : ℝ) := by linarith [h3.1]
  have l2 : (s : ℝ) < v * (1 + 1 / 2 ^ 52) := by
    have : v * (1 + 1 / 2 ^ 52) = 2 * (v * (1 + 1 / 2 ^ 53)) - v := by ring
    linarith [h3.2]
  have q1 : (2 : ℚ) ^ k ≤ s := by
    rw [← ev] at l1
    exact_mod_cast l1
  have q2 : s < (2 : ℚ) ^ k * (1 + 1 / 2 ^ 52) := by
    rw [← ev] at l2
    have : ((s : ℚ) : ℝ) < (((2 : ℚ) ^ k * (1 + 1 / 2 ^ 52) : ℚ) : ℝ) := by push_cast at l2 ⊢; exact l2
    exact_mod_cast this
  have k0 : (0 : ℚ) < 2 ^ k := by positivity
  obtain ⟨n, hn⟩ := float_grid s (k : ℤ) (by rw [zpow_natCast]; exact q1) (by rw [zpow_add₀ (by norm_num), zpow_natCast, zpow_one]; nlinarith) h1
  have hz : (2 : ℚ) ^ ((k : ℤ) - 52) = 2 ^ k / 2 ^ 52 := by
    rw [zpow_sub₀ (by norm_num), zpow_natCast]
    norm_num
  rw [hz] at hn
  have n1 : (2 ^ 52 : ℚ) ≤ n := by
    rw [hn, ← mul_div_assoc, le_div_iff₀ (by positivity)] at q1
    nlinarith
  have n2 : (n : ℚ) < 2 ^ 52 + 1 := by
    rw [hn, ← mul_div_assoc, div_lt_iff₀ (by positivity)] at q2
    by_contra hc
    push Not at hc
    nlinarith
  have n3 : n = 2 ^ 52 := by
    have a1 : (2 ^ 52 : ℤ) ≤ n := by exact_mod_cast n1
    have a2 : n < 2 ^ 52 + 1 := by exact_mod_cast n2
    omega
  rw [hn, n3]
  push_cast
  field_simp
  norm_num

/-- a cell that is a parallelogram up to the last digit of one coordinate: (0, 0), (1, 1), (5, 1 + 2^-52), (4, 0) -/
def skewCell : CellQ := ⟨0, 1, 5, 4, 0, 1, 1 + 1 / 2 ^ 52, 0⟩

/-- a cell that is a rectangle up to the last digit of one coordinate: (0, 0), (0, 1), (2, 1 + 2^-52), (2, 0) -/
def almostRect : CellQ := ⟨0, 0, 2, 2, 0, 1, 1 + 1 / 2 ^ 52, 0⟩

/-- all the coordinates of the cell are float64 numbers -/
def CellQ.Float (k : CellQ) : Prop :=
  fl64 k.x1 = k.x1 ∧ fl64 k.x2 = k.x2 ∧ fl64 k.x3 = k.x3 ∧ fl64 k.x4 = k.x4 ∧ fl64 k.y1 = k.y1 ∧ fl64 k.y2 = k.y2 ∧ fl64 k.y3 = k.y3 ∧ fl64 k.y4 = k.y4

theorem ivt_skew : ∃ p : ℝ, 1 / 2 ≤ p ∧ p ≤ 9 / 16 ∧ (5 / 2 - 4 * p) * (1 + p / 2 ^ 52) = 1 / 2 := by
  have c : ContinuousOn (fun p : ℝ => (5 / 2 - 4 * p) * (1 + p / 2 ^ 52)) (Set.Icc (1 / 2) (9 / 16)) := by fun_prop
  have := intermediate_value_Icc' (by norm_num) c
  obtain ⟨p, hp, e⟩ := this (show (1 / 2 : ℝ) ∈ Set.Icc _ _ from ⟨by norm_num, by norm_num⟩)
  exact ⟨p, hp.1, hp.2, e⟩

/-- **C227 is violated**: in float64, the point (2.5, 0.5), in the middle of the convex cell of corners (0, 0), (1, 1), (5, 1 + 2^-52) and (4, 0), is located more than 10^15 cells away from it.
In exact arithmetic the location is right. -/
theorem C227_middle_violated (sq : ℚ → ℚ) (hs : IeeeSqrt sq) :
    skewCell.Float ∧ skewCell.real.Convex ∧
    (∃ p q : ℝ, 1 / 4 ≤ p ∧ p ≤ 3 / 4 ∧ 1 / 4 ≤ q ∧ q ≤ 3 / 4 ∧ skewCell.real.at p q = (5 / 2, 1 / 2) ∧ cell2relloc skewCell.real (5 / 2) (1 / 2) = .ok (some (p, q))) ∧
    ∃ p q : ℚ, cell2rellocF fl64 sq skewCell (5 / 2) (1 / 2) = .ok (some (p, q)) ∧ p < -10 ^ 15 ∧ 10 ^ 15 < q := by
  have hconv : skewCell.real.Convex := by
    unfold Cell.Convex cross CellQ.real skewCell
    norm_num
  refine ⟨⟨by decide +kernel, by decide +kernel, by decide +kernel, by decide +kernel, by decide +kernel, by decide +kernel, by decide +kernel, by decide +kernel⟩, hconv, ?_, ?_⟩
  · obtain ⟨p, p0, p1, e⟩ := ivt_skew
    have hat : skewCell.real.at p (5 / 2 - 4 * p) = (5 / 2, 1 / 2) := by
      unfold Cell.at CellQ.real skewCell
      ext
      · push_cast; ring
      · push_cast; linear_combination e
    refine ⟨p, 5 / 2 - 4 * p, by linarith, by linarith, by linarith, by linarith, hat, ?_⟩
    have := C13_convex_exact_total skewCell.real hconv ?_ ?_ p (5 / 2 - 4 * p) ⟨by linarith, by linarith, by linarith, by linarith⟩
    · rw [hat] at this
      exact this
    · right
      unfold Cell.edgesCross cross CellQ.real skewCell epsF
      norm_num
    · intro t
      left
      unfold Cell.side CellQ.real skewCell epsF
      push_cast
      rw [show ((1 - t) * (1 - 0) + t * (5 - 4) : ℝ) = 1 by ring]
      norm_num
  · have hD : (coefF fl64 skewCell (5 / 2) (1 / 2)).DD fl64 = 4 ^ 2 * (1 + 1 / 2 ^ 52) := by decide +kernel
    refine ⟨-4503599627370496, 18014398509481988, ?_, by norm_num, by norm_num⟩
    unfold cell2rellocF
    rw [hD, sqrt_near hs 2 (by decide +kernel)]
    decide +kernel

/-- **C227 is violated**: in float64, the point (9/8, 1/2) of the rectangle of sides 2 and 1, whose relative location is (9/16, 1/2), is located at (1/4, 1/2) when the latitude of one corner
has one unit more in its last digit. -/
theorem C227_rounding_violated (sq : ℚ → ℚ) (hs : IeeeSqrt sq) :
    almostRect.Float ∧ almostRect.real.Convex ∧
    (∃ q : ℝ, |q - 1 / 2| ≤ 1 / 2 ^ 52 ∧ almostRect.real.at (9 / 16) q = (9 / 8, 1 / 2)) ∧
    cell2rellocF fl64 sq almostRect (9 / 8) (1 / 2) = .ok (some (1 / 4, 1 / 2)) := by
  refine ⟨⟨by decide +kernel, by decide +kernel, by decide +kernel, by decide +kernel, by decide +kernel, by decide +kernel, by decide +kernel, by decide +kernel⟩, ?_, ?_, ?_⟩
  · unfold Cell.Convex cross CellQ.real almostRect
    norm_num
  · refine ⟨(1 / 2) / (1 + 9 / 16 / 2 ^ 52), ?_, ?_⟩
    · rw [abs_le]; norm_num
    · unfold Cell.at CellQ.real almostRect
      norm_num
  · have hD : (coefF fl64 almostRect (9 / 8) (1 / 2)).DD fl64 = 4 ^ 1 * (1 + 1 / 2 ^ 52) := by decide +kernel
    unfold cell2rellocF
    rw [hD, sqrt_near hs 1 (by decide +kernel)]
    decide +kernel

/-- the square root of a number between the squares of the middles of two steps of float64 -/
theorem sqrt_between {sq : ℚ → ℚ} (hs : IeeeSqrt sq) (x s0 : ℚ) (n k : ℤ) (hn : s0 = n * 2 ^ (k - 52)) (n0 : 2 ^ 52 < n) (n1 : n + 1 < 2 ^ 53) (hf : fl64 s0 = s0)
    (a0 : (s0 - 2 ^ (k - 52) / 2) ^ 2 < x) (a1 : x < (s0 + 2 ^ (k - 52) / 2) ^ 2) : sq x = s0 := by
  have x0 : 0 ≤ x := (sq_nonneg _).trans a0.le
  have hp : (0 : ℚ) < 2 ^ (k - 52) := zpow_pos (by norm_num) _
  obtain ⟨h1, h2⟩ := hs x x0
  have h3 := h2 _ hf
  set g : ℚ := 2 ^ (k - 52) with hg
  have hpr : (0 : ℝ) < g := by exact_mod_cast hp
  have m0 : (2 ^ 52 : ℚ) < n := by exact_mod_cast n0
  have s1 : 2 ^ 52 * g < s0 := by rw [hn]; exact mul_lt_mul_of_pos_right m0 hp
  have sp : 0 ≤ s0 - g / 2 := by nlinarith
  have r0 : ((s0 - g / 2 : ℚ) : ℝ) < √(x : ℝ) := Real.lt_sqrt_of_sq_lt (by exact_mod_cast a0)
  have r1 : √(x : ℝ) < ((s0 + g / 2 : ℚ) : ℝ) := by
    apply (Real.sqrt_lt' ?_).2
    · exact_mod_cast a1
    · have : (0 : ℚ) < s0 + g / 2 := by linarith
      exact_mod_cast this
  push_cast at r0 r1
  have b : |(s0 : ℝ) - √(x : ℝ)| < g / 2 := by rw [abs_lt]; constructor <;> linarith
  have h4 := abs_lt.1 (lt_of_le_of_lt h3 b)
  have b' := abs_lt.1 b
  have c0 : s0 - g < sq x := by
    have : ((s0 - g : ℚ) : ℝ) < (sq x : ℝ) := by push_cast; linarith [h4.1, b'.2]
    exact_mod_cast this
  have c1 : sq x < s0 + g := by
    have : (sq x : ℝ) < ((s0 + g : ℚ) : ℝ) := by push_cast; linarith [h4.2, b'.1]
    exact_mod_cast this
  have e52 : (2 : ℚ) ^ k = 2 ^ 52 * g := by
    rw [hg, show (2 : ℚ) ^ 52 = 2 ^ (52 : ℤ) from (zpow_natCast 2 52).symm, ← zpow_add₀ (by norm_num)]; congr 1; ring
  have m1 : ((2 ^ 52 + 1 : ℤ) : ℚ) ≤ n := by exact_mod_cast n0
  have m2 : ((n + 1 : ℤ) : ℚ) < ((2 ^ 53 : ℤ) : ℚ) := by exact_mod_cast n1
  push_cast at m1 m2
  obtain ⟨m, hm⟩ := float_grid (sq x) k (by
    rw [e52]
    have : (2 ^ 52 + 1) * g ≤ n * g := mul_le_mul_of_nonneg_right (by norm_num at m1 ⊢; exact m1) hp.le
    rw [hn] at c0
    linarith) (by
    rw [zpow_add₀ (by norm_num), e52, zpow_one]
    have : ((n : ℚ) + 1) * g < 2 ^ 53 * g := mul_lt_mul_of_pos_right (by norm_num at m2 ⊢; exact m2) hp
    rw [hn] at c1
    linarith) h1
  rw [← hg] at hm
  rw [hm, hn] at c0 c1
  have d0 : (n : ℚ) - 1 < m := by nlinarith
  have d1 : (m : ℚ) < n + 1 := by nlinarith
  have d0' : n - 1 < m := by exact_mod_cast d0
  have d1' : m < n + 1 := by exact_mod_cast d1
  rw [hm, hn, show m = n by omega]

/-- a tenth in float64 -/
def tenthF : ℚ := 3602879701896397 / 36028797018963968

/-- a rectangle: longitudes from 0 to 8, latitudes from -0.1 to 3 -/
def plainRect : CellQ := ⟨0, 0, 8, 8, -tenthF, 3, 3, -tenthF⟩

/-- **C227 is violated** even by rectangles, when their height is rounded: in float64, in the rectangle of longitudes 0 to 8 and latitudes -0.1 to 3, the point (7, 1) is located more than
10^15 cells away. -/
theorem C227_plain_rectangle_violated (sq : ℚ → ℚ) (hs : IeeeSqrt sq) :
    plainRect.Float ∧ plainRect.real.at (7 / 8) ((1 + tenthF) / (3 + tenthF)) = (7, 1) ∧
    ∃ p q : ℚ, cell2rellocF fl64 sq plainRect 7 1 = .ok (some (p, q)) ∧ p < -10 ^ 15 ∧ q < -10 ^ 15 := by
  refine ⟨⟨by decide +kernel, by decide +kernel, by decide +kernel, by decide +kernel, by decide +kernel, by decide +kernel, by decide +kernel, by decide +kernel⟩, ?_, ?_⟩
  · unfold Cell.at CellQ.real plainRect tenthF
    norm_num
  · have hD : (coefF fl64 plainRect 7 1).DD fl64 = 2704974526189405 / 4398046511104 := by decide +kernel
    have hq : sq (2704974526189405 / 4398046511104) = 3490289711212135 / 140737488355328 := by
      apply sqrt_between hs _ _ 6980579422424270 4
      · norm_num
      · norm_num
      · norm_num
      · decide +kernel
      · norm_num
      · norm_num
    refine ⟨-37229756919596104, -2476979795053773, ?_, by norm_num, by norm_num⟩
    unfold cell2rellocF
    rw [hD, hq]
    decide +kernel

/-! ## The hypotheses are met -/

theorem rneInt_cast (n : ℤ) : rneInt (n : ℚ) = n := by
  unfold rneInt
  simp

theorem fl64_grid (n k : ℤ) (h0 : 2 ^ 52 ≤ n) (h1 : n ≤ 2 ^ 53) : fl64 ((n : ℚ) * 2 ^ (k - 52)) = n * 2 ^ (k - 52) := by
  have hp : (0 : ℚ) < 2 ^ (k - 52) := zpow_pos (by norm_num) _
  have e52 : (2 : ℚ) ^ k = 2 ^ 52 * 2 ^ (k - 52) := by
    rw [show (2 : ℚ) ^ 52 = 2 ^ (52 : ℤ) from (zpow_natCast 2 52).symm, ← zpow_add₀ (by norm_num)]; congr 1; ring
  have q0 : (2 ^ 52 : ℚ) ≤ n := by exact_mod_cast h0
  have ab : |(n : ℚ) * 2 ^ (k - 52)| = n * 2 ^ (k - 52) := abs_of_nonneg (mul_nonneg (by linarith [show (0 : ℚ) < 2 ^ 52 by positivity]) hp.le)
  rcases lt_or_eq_of_le h1 with h1 | h1
  · have q1 : (n : ℚ) < 2 ^ 53 := by exact_mod_cast h1
    unfold fl64
    rw [rne_eq 53 _ k (by rw [ab, e52]; exact mul_le_mul_of_nonneg_right q0 hp.le) (by
      rw [ab, zpow_add₀ (by norm_num), e52, zpow_one]
      have := mul_lt_mul_of_pos_right q1 hp
      calc (n : ℚ) * 2 ^ (k - 52) < 2 ^ 53 * 2 ^ (k - 52) := this
        _ = 2 ^ 52 * 2 ^ (k - 52) * 2 := by ring)]
    have e' : k + 1 - ((53 : ℕ) : ℤ) = k - 52 := by push_cast; ring
    rw [e', mul_div_assoc, div_self hp.ne', mul_one, rneInt_cast]
  · subst h1
    have e1 : (((2 : ℤ) ^ 53 : ℤ) : ℚ) * 2 ^ (k - 52) = 2 ^ (k + 1) := by
      rw [zpow_add₀ (by norm_num), e52, zpow_one]; push_cast; ring
    rw [e1]
    have hp1 : (0 : ℚ) < 2 ^ (k + 1) := zpow_pos (by norm_num) _
    unfold fl64
    rw [rne_eq 53 _ (k + 1) (by rw [abs_of_pos hp1]) (by rw [abs_of_pos hp1, zpow_add₀ (by norm_num) (k + 1) 1, zpow_one]; linarith)]
    have e' : k + 1 + 1 - ((53 : ℕ) : ℤ) = (k + 1) - 52 := by push_cast; ring
    have e3 : (2 : ℚ) ^ (k + 1) = ((2 ^ 52 : ℤ) : ℚ) * 2 ^ (k + 1 - 52) := by
      rw [show (((2 : ℤ) ^ 52 : ℤ) : ℚ) = 2 ^ 52 by norm_num, show (2 : ℚ) ^ 52 = 2 ^ (52 : ℤ) from (zpow_natCast 2 52).symm, ← zpow_add₀ (by norm_num)]; congr 1; ring
    have hp2 : (0 : ℚ) < 2 ^ (k + 1 - 52) := zpow_pos (by norm_num) _
    rw [e', e3, mul_div_assoc, div_self hp2.ne', mul_one, rneInt_cast]

/-- there is such a square root -/
theorem ieeeSqrt_exists : ∃ sq, IeeeSqrt sq := by
  have H : ∀ x : ℚ, ∃ s : ℚ, 0 ≤ x → fl64 s = s ∧ ∀ y : ℚ, fl64 y = y → |(s : ℝ) - √(x : ℝ)| ≤ |(y : ℝ) - √(x : ℝ)| := by
    intro x
    rcases lt_trichotomy x 0 with h | h | h
    · exact ⟨0, fun h' => absurd h' (not_le.2 h)⟩
    · exact ⟨0, fun _ => ⟨by decide +kernel, fun y _ => by simp [h]⟩⟩
    · have hr : 0 < √(x : ℝ) := Real.sqrt_pos.2 (by exact_mod_cast h)
      set r := √(x : ℝ) with hrd
      set k := Int.log 2 r with hk
      have b0 : (2 : ℝ) ^ k ≤ r := by have := Int.zpow_log_le_self (b := 2) (by norm_num) hr; exact_mod_cast this
      have b1 : r < (2 : ℝ) ^ (k + 1) := by have := Int.lt_zpow_succ_log_self (b := 2) (by norm_num) r; exact_mod_cast this
      have hp : (0 : ℝ) < 2 ^ (k - 52) := zpow_pos (by norm_num) _
      have e52 : (2 : ℝ) ^ k = 2 ^ 52 * 2 ^ (k - 52) := by
        rw [show (2 : ℝ) ^ 52 = 2 ^ (52 : ℤ) from (zpow_natCast 2 52).symm, ← zpow_add₀ (by norm_num)]; congr 1; ring
      have e53 : (2 : ℝ) ^ (k + 1) = 2 ^ 53 * 2 ^ (k - 52) := by
        rw [zpow_add₀ (by norm_num), e52, zpow_one]; ring
      set n := round (r / 2 ^ (k - 52)) with hn
      have near : ∀ m : ℤ, |(n : ℝ) * 2 ^ (k - 52) - r| ≤ |(m : ℝ) * 2 ^ (k - 52) - r| := by
        intro m
        have := round_le (r / 2 ^ (k - 52)) m
        have f : ∀ t : ℤ, |(t : ℝ) * 2 ^ (k - 52) - r| = |r / 2 ^ (k - 52) - t| * 2 ^ (k - 52) := by
          intro t
          rw [abs_sub_comm, ← abs_of_pos hp, ← abs_mul, abs_of_pos hp, sub_mul, div_mul_cancel₀ _ hp.ne']
        rw [f, f]
        exact mul_le_mul_of_nonneg_right this hp.le
      have near52 := near (2 ^ 52)
      rw [show (((2 : ℤ) ^ 52 : ℤ) : ℝ) = 2 ^ 52 by norm_num, ← e52] at near52
      have near53 := near (2 ^ 53)
      rw [show (((2 : ℤ) ^ 53 : ℤ) : ℝ) = 2 ^ 53 by norm_num, ← e53] at near53
      have n0 : 2 ^ 52 ≤ n := by
        by_contra hc
        have h1 : (n : ℝ) + 1 ≤ 2 ^ 52 := by exact_mod_cast (not_le.1 hc)
        have h2 : ((n : ℝ) + 1) * 2 ^ (k - 52) ≤ 2 ^ k := by rw [e52]; exact mul_le_mul_of_nonneg_right h1 hp.le
        rw [abs_of_nonpos (a := (2 : ℝ) ^ k - r) (by linarith), abs_of_nonpos (by linarith)] at near52
        linarith
      have n1 : n ≤ 2 ^ 53 := by
        by_contra hc
        have h1 : (2 : ℝ) ^ 53 + 1 ≤ n := by exact_mod_cast (not_le.1 hc)
        have h2 : (2 : ℝ) ^ (k + 1) + 2 ^ (k - 52) ≤ n * 2 ^ (k - 52) := by
          have := mul_le_mul_of_nonneg_right h1 hp.le
          rw [e53]
          linarith
        rw [abs_of_nonneg (a := (2 : ℝ) ^ (k + 1) - r) (by linarith), abs_of_nonneg (by linarith)] at near53
        linarith
      refine ⟨n * 2 ^ (k - 52), fun _ => ⟨fl64_grid n k n0 n1, ?_⟩⟩
      intro y hy
      have ec : (((n : ℚ) * 2 ^ (k - 52) : ℚ) : ℝ) = (n : ℝ) * 2 ^ (k - 52) := by push_cast; rfl
      rw [ec]
      by_cases h0 : (2 : ℚ) ^ k ≤ y
      · by_cases h1 : y < 2 ^ (k + 1)
        · obtain ⟨m, hm⟩ := float_grid y k h0 h1 hy
          have := near m
          rw [hm]
          push_cast
          exact this
        · have h1' : (2 : ℝ) ^ (k + 1) ≤ y := by
            have : (((2 : ℚ) ^ (k + 1) : ℚ) : ℝ) ≤ y := by exact_mod_cast not_lt.1 h1
            push_cast at this
            exact this
          refine near53.trans ?_
          rw [abs_of_nonneg (by linarith), abs_of_nonneg (by linarith)]
          linarith
      · have h0' : (y : ℝ) < (2 : ℝ) ^ k := by
          have : (y : ℝ) < (((2 : ℚ) ^ k : ℚ) : ℝ) := by exact_mod_cast not_le.1 h0
          push_cast at this
          exact this
        refine near52.trans ?_
        rw [abs_of_nonpos (by linarith), abs_of_nonpos (by linarith)]
        linarith
  choose sq hsq using H
  exact ⟨sq, hsq⟩

-- the violations are those of the square root of float64
example : ∃ sq, IeeeSqrt sq ∧ cell2rellocF fl64 sq almostRect (9 / 8) (1 / 2) = .ok (some (1 / 4, 1 / 2)) := by
  obtain ⟨sq, h⟩ := ieeeSqrt_exists
  exact ⟨sq, h, (C227_rounding_violated sq h).2.2.2⟩

-- float64 and a rectangle of a tenth of degree
example : ∃ p q, cell2rellocF fl64 (fun _ => 0) ⟨fl64 (1 / 10), fl64 (1 / 10), fl64 (1 / 10) + 1 / 8, fl64 (1 / 10) + 1 / 8, 45, 45 + 1 / 8, 45 + 1 / 8, 45⟩ (fl64 (2 / 10)) (45 + 1 / 16) = .ok (some (p, q)) ∧
    RelClose (10 * (1 / 2 ^ 53)) ((fl64 (2 / 10) - fl64 (1 / 10)) / (1 / 8)) p ∧ RelClose (10 * (1 / 2 ^ 53)) ((45 + 1 / 16 - 45) / (1 / 8)) q :=
  C227_rectangle_partial (rne_rounds 53 (by norm_num)) (by norm_num) _ _ _ _ _ _ _ (by norm_num) (by norm_num) (by decide +kernel) (by decide +kernel) (by decide +kernel)


/-! ## Without rounding, the program is the one of `Verif.Interp2d` -/

/-- the pair as real numbers -/
def realPair (pq : ℚ × ℚ) : ℝ × ℝ := (pq.1, pq.2)

theorem divFl_id (a b : ℚ) : (divFl id a b).map (fun z : ℚ => (z : ℝ)) = divF a b := by
  unfold divFl divF
  by_cases h : b = 0
  · rw [if_pos h, if_pos (by exact_mod_cast h)]; rfl
  · rw [if_neg h, if_neg (by exact_mod_cast h)]
    simp [Except.map]

theorem q_id (k : CoefF) (p : ℚ) : (k.q id p).map (fun z : ℚ => (z : ℝ)) = cellQ k.a k.b k.c k.d k.e k.f k.xx k.yy p := by
  unfold CoefF.q cellQ
  simp only [id]
  have e : (|k.b + k.c * p| > smallF) ↔ (|(k.b : ℝ) + k.c * p| > 2 * epsF) := by
    have : ((2 / 2 ^ 52 : ℚ) : ℝ) = 2 * (1 / 2 ^ 52) := by norm_num
    unfold smallF epsF
    rw [← this, gt_iff_lt, gt_iff_lt, ← Rat.cast_lt (K := ℝ)]
    push_cast
    rfl
  by_cases h : |k.b + k.c * p| > smallF
  · rw [if_pos h, if_pos (e.1 h), divFl_id]; push_cast; rfl
  · rw [if_neg h, if_neg (fun h' => h (e.2 h')), divFl_id]; push_cast; rfl

theorem select_id (k : CoefF) (p1 p2 : ℚ) : (k.select id p1 p2).map realPair = cellSelect k.a k.b k.c k.d k.e k.f k.xx k.yy p1 p2 := by
  unfold CoefF.select cellSelect
  rw [← q_id]
  cases h1 : k.q id p1 with
  | error e => rfl
  | ok q1 =>
    simp only [Except.bind, Except.map]
    have e : (p1 < 0 ∨ p1 > 1 ∨ q1 < 0 ∨ q1 > 1) ↔ ((p1 : ℝ) < 0 ∨ (p1 : ℝ) > 1 ∨ (q1 : ℝ) < 0 ∨ (q1 : ℝ) > 1) := by
      simp only [gt_iff_lt]
      norm_cast
    by_cases h : p1 < 0 ∨ p1 > 1 ∨ q1 < 0 ∨ q1 > 1
    · rw [if_pos h, if_pos (e.1 h), ← q_id]
      cases k.q id p2 <;> rfl
    · rw [if_neg h, if_neg (fun h' => h (e.2 h'))]
      rfl

/-- **C227.** Without rounding, and when the square root is exact, this program is the one of the exact model. -/
theorem C227_exact (sq : ℚ → ℚ) (k : CellQ) (x y : ℚ) (hs : 0 ≤ sq ((coefF id k x y).DD id))
    (hq : 0 ≤ (coefF id k x y).DD id → sq ((coefF id k x y).DD id) ^ 2 = (coefF id k x y).DD id) :
    (cell2rellocF id sq k x y).map (Option.map realPair) = cell2relloc k.real x y := by
  unfold cell2rellocF cell2relloc
  have hD : (((coefF id k x y).DD id : ℚ) : ℝ) = (((coefF id k x y).BB id : ℚ) : ℝ) ^ 2 - 4 * (((coefF id k x y).AA id : ℚ) : ℝ) * (((coefF id k x y).CC id : ℚ) : ℝ) := by
    unfold CoefF.DD
    simp only [id]
    push_cast
    ring
  have hA : (((coefF id k x y).AA id : ℚ) : ℝ) = (k.real.x3 - k.real.x4 - k.real.x2 + k.real.x1) * (k.real.y4 - k.real.y1) - (k.real.x4 - k.real.x1) * (k.real.y3 - k.real.y4 - k.real.y2 + k.real.y1) := by
    unfold CoefF.AA coefF CellQ.real
    simp only [id]
    push_cast
    ring
  have hB : (((coefF id k x y).BB id : ℚ) : ℝ) = -(k.real.x3 - k.real.x4 - k.real.x2 + k.real.x1) * ((y : ℝ) - k.real.y1) + (k.real.x2 - k.real.x1) * (k.real.y4 - k.real.y1) +
      ((x : ℝ) - k.real.x1) * (k.real.y3 - k.real.y4 - k.real.y2 + k.real.y1) - (k.real.x4 - k.real.x1) * (k.real.y2 - k.real.y1) := by
    unfold CoefF.BB coefF CellQ.real
    simp only [id]
    push_cast
    ring
  have hC : (((coefF id k x y).CC id : ℚ) : ℝ) = -((y : ℝ) - k.real.y1) * (k.real.x2 - k.real.x1) + (k.real.y2 - k.real.y1) * ((x : ℝ) - k.real.x1) := by
    unfold CoefF.CC coefF CellQ.real
    simp only [id]
    push_cast
    ring
  have hsel : ∀ p1 p2 : ℚ, ((coefF id k x y).select id p1 p2).map realPair =
      cellSelect (k.real.x4 - k.real.x1) (k.real.x2 - k.real.x1) (k.real.x3 - k.real.x4 - k.real.x2 + k.real.x1) (k.real.y4 - k.real.y1) (k.real.y2 - k.real.y1)
        (k.real.y3 - k.real.y4 - k.real.y2 + k.real.y1) ((x : ℝ) - k.real.x1) ((y : ℝ) - k.real.y1) p1 p2 := by
    intro p1 p2
    rw [select_id]
    unfold coefF CellQ.real
    simp only [id]
    push_cast
    rfl
  dsimp only
  rw [← hA, ← hB, ← hC]
  set K := coefF id k x y with hK
  have key : ∀ r : Option (ℚ × ℚ), (r.elim (.ok none) fun pp => (K.select id pp.1 pp.2).map some : Except LocErr (Option (ℚ × ℚ))).map (Option.map realPair) =
      ((r.map realPair).elim (.ok none) fun pp => (cellSelect (k.real.x4 - k.real.x1) (k.real.x2 - k.real.x1) (k.real.x3 - k.real.x4 - k.real.x2 + k.real.x1) (k.real.y4 - k.real.y1) (k.real.y2 - k.real.y1)
        (k.real.y3 - k.real.y4 - k.real.y2 + k.real.y1) ((x : ℝ) - k.real.x1) ((y : ℝ) - k.real.y1) pp.1 pp.2).map some : Except LocErr (Option (ℝ × ℝ))) := by
    intro r
    cases r with
    | none => rfl
    | some pp =>
      simp only [Option.elim_some, Option.map_some, realPair]
      rw [← hsel]
      cases K.select id pp.1 pp.2 <;> rfl
  have hroots : (K.roots id (sq (K.DD id))).map (Option.map realPair) = cellRoots (K.AA id) (K.BB id) (K.CC id) := by
    unfold CoefF.roots cellRoots
    have e : (|K.AA id| < smallF) ↔ (|(K.AA id : ℝ)| < 2 * epsF) := by
      have : ((2 / 2 ^ 52 : ℚ) : ℝ) = 2 * (1 / 2 ^ 52) := by norm_num
      unfold smallF epsF
      rw [← this, ← Rat.cast_lt (K := ℝ)]
      push_cast
      rfl
    by_cases h : |K.AA id| < smallF
    · rw [if_pos h, if_pos (e.1 h)]
      have := divFl_id (-K.CC id) (K.BB id)
      push_cast at this
      rw [← this]
      cases divFl id (-K.CC id) (K.BB id) <;> rfl
    · rw [if_neg h, if_neg (fun h' => h (e.2 h')), ← hD]
      unfold sqrtF
      by_cases hn : K.DD id < 0
      · rw [if_pos hn, if_pos (by exact_mod_cast hn)]
        rfl
      · rw [if_neg hn, if_neg (by exact_mod_cast hn)]
        have hr : √(K.DD id : ℝ) = (sq (K.DD id) : ℝ) := by
          rw [Real.sqrt_eq_iff_mul_self_eq (by exact_mod_cast not_lt.1 hn) (by exact_mod_cast hs), ← pow_two]
          exact_mod_cast (hq (not_lt.1 hn)).symm
        have hne : 2 * K.AA id ≠ 0 := by
          intro h0
          apply h
          rw [show K.AA id = 0 by linarith]
          norm_num [smallF]
        rw [hr]
        unfold divFl
        have hne' : K.AA id ≠ 0 := fun h0 => hne (by rw [h0, mul_zero])
        simp [Except.map, Except.bind, realPair, hne']
  rw [← hroots]
  cases h : K.roots id (sq (K.DD id)) with
  | error e => rfl
  | ok r =>
    simp only [Except.bind, Except.map] at key ⊢
    exact key r

-- the square root is exact when the discriminant is a square: a trapezoid
example : (cell2rellocF id (fun _ => 3 / 2) ⟨0, 0, 1, 1, 0, 1, 2, 0⟩ (1 / 2) 1).map (Option.map realPair) = cell2relloc (CellQ.real ⟨0, 0, 1, 1, 0, 1, 2, 0⟩) ((1 / 2 : ℚ) : ℝ) ((1 : ℚ) : ℝ) := by
  apply C227_exact
  · norm_num
  · intro _
    norm_num [CoefF.DD, CoefF.AA, CoefF.BB, CoefF.CC, coefF]

end Xoa
