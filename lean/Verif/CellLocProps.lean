import Verif.Interp2d
import Mathlib.Tactic.Linarith
import Mathlib.Tactic.Ring
import Mathlib.Tactic.FieldSimp
import Mathlib.Tactic.LinearCombination
import Mathlib.Tactic.Positivity

/-!
# C13: the relative location in a cell inverts the bilinear map

Specification: the bilinear combination of the corners
```
  2 - 3
  |   |
  1 - 4
```
with weights `(1-p)(1-q)`, `(1-p)q`, `pq`, `p(1-q)` for the corners 1, 2, 3, 4.
-/

namespace Xoa

/-- the bilinear combination of the four corners -/
def Cell.at (k : Cell) (p q : ℝ) : ℝ × ℝ :=
  ((1 - p) * (1 - q) * k.x1 + (1 - p) * q * k.x2 + p * q * k.x3 + p * (1 - q) * k.x4,
   (1 - p) * (1 - q) * k.y1 + (1 - p) * q * k.y2 + p * q * k.y3 + p * (1 - q) * k.y4)

/-- cross product of two plane vectors -/
def cross (u v : ℝ × ℝ) : ℝ := u.1 * v.2 - u.2 * v.1

/-- cross product of the upper edge 2-3 and of the lower edge 1-4: zero when they are parallel -/
def Cell.edgesCross (k : Cell) : ℝ := cross (k.x3 - k.x2, k.y3 - k.y2) (k.x4 - k.x1, k.y4 - k.y1)

/-- the vector from the point `p` of the lower edge to the point `p` of the upper edge -/
def Cell.side (k : Cell) (p : ℝ) : ℝ × ℝ :=
  ((1 - p) * (k.x2 - k.x1) + p * (k.x3 - k.x4), (1 - p) * (k.y2 - k.y1) + p * (k.y3 - k.y4))

/-- a strictly convex cell: one turns in the same direction at its four corners -/
def Cell.Convex (k : Cell) : Prop :=
  let t1 := cross (k.x4 - k.x1, k.y4 - k.y1) (k.x2 - k.x1, k.y2 - k.y1)
  let t4 := cross (k.x3 - k.x4, k.y3 - k.y4) (k.x1 - k.x4, k.y1 - k.y4)
  let t3 := cross (k.x2 - k.x3, k.y2 - k.y3) (k.x4 - k.x3, k.y4 - k.y3)
  let t2 := cross (k.x1 - k.x2, k.y1 - k.y2) (k.x3 - k.x2, k.y3 - k.y2)
  (0 < t1 ∧ 0 < t2 ∧ 0 < t3 ∧ 0 < t4) ∨ (t1 < 0 ∧ t2 < 0 ∧ t3 < 0 ∧ t4 < 0)

/-- the point `(p, q)` of the unit square -/
def InUnit (p q : ℝ) : Prop := 0 ≤ p ∧ p ≤ 1 ∧ 0 ≤ q ∧ q ≤ 1

/-! ### helper: the equations in the coefficients of the code -/

structure Cf where
  a : ℝ
  b : ℝ
  c : ℝ
  d : ℝ
  e : ℝ
  f : ℝ

def Cell.cf (k : Cell) : Cf :=
  ⟨k.x4 - k.x1, k.x2 - k.x1, k.x3 - k.x4 - k.x2 + k.x1, k.y4 - k.y1, k.y2 - k.y1, k.y3 - k.y4 - k.y2 + k.y1⟩

def Cf.AA (m : Cf) : ℝ := m.c * m.d - m.a * m.f
def Cf.BB (m : Cf) (xx yy : ℝ) : ℝ := -m.c * yy + m.b * m.d + xx * m.f - m.a * m.e
def Cf.CC (m : Cf) (xx yy : ℝ) : ℝ := -yy * m.b + m.e * xx

theorem cell2relloc_cf (k : Cell) (x y : ℝ) :
    cell2relloc k x y = (cellRoots k.cf.AA (k.cf.BB (x - k.x1) (y - k.y1)) (k.cf.CC (x - k.x1) (y - k.y1))).bind fun r =>
      r.elim (.ok none) fun pp => (cellSelect k.cf.a k.cf.b k.cf.c k.cf.d k.cf.e k.cf.f (x - k.x1) (y - k.y1) pp.1 pp.2).map some := rfl

theorem edgesCross_AA (k : Cell) : k.edgesCross = k.cf.AA := by
  simp only [Cell.edgesCross, cross, Cf.AA, Cell.cf]; ring

theorem side_cf (k : Cell) (p : ℝ) : k.side p = (k.cf.b + k.cf.c * p, k.cf.e + k.cf.f * p) := by
  simp only [Cell.side, Cell.cf]; ext <;> simp only <;> ring

theorem at_fst (k : Cell) (p q : ℝ) : (k.at p q).1 = k.x1 + (k.cf.a * p + (k.cf.b + k.cf.c * p) * q) := by
  simp only [Cell.at, Cell.cf]; ring

theorem at_snd (k : Cell) (p q : ℝ) : (k.at p q).2 = k.y1 + (k.cf.d * p + (k.cf.e + k.cf.f * p) * q) := by
  simp only [Cell.at, Cell.cf]; ring

theorem divF_ok {u v r : ℝ} (h : divF u v = .ok r) : v ≠ 0 ∧ r = u / v := by
  unfold divF at h
  split at h
  · simp at h
  · rename_i hv; exact ⟨hv, (Except.ok.inj h).symm⟩

/-- what `q` satisfies -/
theorem cellQ_spec {m : Cf} {xx yy p q : ℝ} (h : cellQ m.a m.b m.c m.d m.e m.f xx yy p = .ok q) :
    (m.b + m.c * p ≠ 0 ∧ 2 * epsF < |m.b + m.c * p| ∧ (m.b + m.c * p) * q = xx - m.a * p) ∨
    (|m.b + m.c * p| ≤ 2 * epsF ∧ m.e + m.f * p ≠ 0 ∧ (m.e + m.f * p) * q = yy - m.d * p) := by
  unfold cellQ at h
  split at h
  · rename_i hb
    obtain ⟨hv, rfl⟩ := divF_ok h
    left; exact ⟨hv, hb, by field_simp⟩
  · rename_i hb
    obtain ⟨hv, rfl⟩ := divF_ok h
    right; exact ⟨not_lt.mp hb, hv, by field_simp⟩

/-- the identity behind the quadratic equation -/
theorem quad_identity (m : Cf) (xx yy p : ℝ) :
    (m.e + m.f * p) * (xx - m.a * p) - (m.b + m.c * p) * (yy - m.d * p) = m.AA * p ^ 2 + m.BB xx yy * p + m.CC xx yy := by
  simp only [Cf.AA, Cf.BB, Cf.CC]; ring

/-- the selected pair is `(p1, q1)` or `(p2, q2)` -/
theorem cellSelect_spec {m : Cf} {xx yy p1 p2 p q : ℝ} (h : cellSelect m.a m.b m.c m.d m.e m.f xx yy p1 p2 = .ok (p, q)) :
    (p = p1 ∨ p = p2) ∧ cellQ m.a m.b m.c m.d m.e m.f xx yy p = .ok q := by
  unfold cellSelect at h
  cases h1 : cellQ m.a m.b m.c m.d m.e m.f xx yy p1 with
  | error e => rw [h1] at h; simp [Except.bind] at h
  | ok q1 =>
    rw [h1] at h
    simp only [Except.bind] at h
    split at h
    · cases h2 : cellQ m.a m.b m.c m.d m.e m.f xx yy p2 with
      | error e => rw [h2] at h; simp [Except.map] at h
      | ok q2 =>
        rw [h2] at h
        simp only [Except.map, Except.ok.injEq, Prod.mk.injEq] at h
        obtain ⟨rfl, rfl⟩ := h
        exact ⟨Or.inr rfl, h2⟩
    · simp only [Except.ok.injEq, Prod.mk.injEq] at h
      obtain ⟨rfl, rfl⟩ := h
      exact ⟨Or.inl rfl, h1⟩

/-- the returned pair, decomposed -/
theorem cell2relloc_ok {k : Cell} {x y p q : ℝ} (h : cell2relloc k x y = .ok (some (p, q))) :
    ∃ p1 p2, cellRoots k.cf.AA (k.cf.BB (x - k.x1) (y - k.y1)) (k.cf.CC (x - k.x1) (y - k.y1)) = .ok (some (p1, p2)) ∧
      cellSelect k.cf.a k.cf.b k.cf.c k.cf.d k.cf.e k.cf.f (x - k.x1) (y - k.y1) p1 p2 = .ok (p, q) := by
  rw [cell2relloc_cf] at h
  cases hr : cellRoots k.cf.AA (k.cf.BB (x - k.x1) (y - k.y1)) (k.cf.CC (x - k.x1) (y - k.y1)) with
  | error e => rw [hr] at h; simp [Except.bind] at h
  | ok r =>
    rw [hr] at h
    simp only [Except.bind] at h
    cases r with
    | none => simp at h
    | some pp =>
      obtain ⟨p1, p2⟩ := pp
      refine ⟨p1, p2, rfl, ?_⟩
      simp only [Option.elim_some] at h
      cases hs : cellSelect k.cf.a k.cf.b k.cf.c k.cf.d k.cf.e k.cf.f (x - k.x1) (y - k.y1) p1 p2 with
      | error e => rw [hs] at h; simp [Except.map] at h
      | ok v => rw [hs] at h; simp only [Except.map, Except.ok.injEq, Option.some.injEq] at h; rw [h]

/-- both roots solve the quadratic equation, or the linear one when the edges are nearly parallel -/
theorem cellRoots_spec {AA BB CC p1 p2 : ℝ} (h : cellRoots AA BB CC = .ok (some (p1, p2))) :
    (|AA| < 2 * epsF ∧ BB ≠ 0 ∧ p1 = p2 ∧ BB * p1 + CC = 0) ∨
    (2 * epsF ≤ |AA| ∧ 0 ≤ BB ^ 2 - 4 * AA * CC ∧ AA * p1 ^ 2 + BB * p1 + CC = 0 ∧ AA * p2 ^ 2 + BB * p2 + CC = 0 ∧
      p1 = (-BB - Real.sqrt (BB ^ 2 - 4 * AA * CC)) / (2 * AA) ∧ p2 = (-BB + Real.sqrt (BB ^ 2 - 4 * AA * CC)) / (2 * AA)) := by
  unfold cellRoots at h
  split at h
  · rename_i hA
    left
    cases hd : divF (-CC) BB with
    | error e => rw [hd] at h; simp [Except.map] at h
    | ok v =>
      obtain ⟨hB, rfl⟩ := divF_ok hd
      rw [hd] at h
      simp only [Except.map, Except.ok.injEq, Option.some.injEq, Prod.mk.injEq] at h
      obtain ⟨rfl, rfl⟩ := h
      exact ⟨hA, hB, rfl, by field_simp; ring⟩
  · rename_i hA
    right
    have hA' := not_lt.mp hA
    have heps : (0 : ℝ) < epsF := by unfold epsF; positivity
    have hA0 : AA ≠ 0 := by intro h0; rw [h0, abs_zero] at hA'; linarith
    unfold sqrtF at h
    split at h
    · simp at h
    · rename_i hD
      have hD' := not_lt.mp hD
      simp only [Option.map_some, Except.ok.injEq, Option.some.injEq, Prod.mk.injEq] at h
      obtain ⟨rfl, rfl⟩ := h
      have hs := Real.sq_sqrt hD'
      set s := Real.sqrt (BB ^ 2 - 4 * AA * CC)
      refine ⟨hA', hD', ?_, ?_, rfl, rfl⟩
      · field_simp; linear_combination hs
      · field_simp; linear_combination hs

/-- **C13.** When `cell2relloc` returns `(p, q)`, the bilinear combination of the corners with `p` and
`q` is exactly the target, for every cell whose lower and upper edges are exactly parallel or
not nearly so (`|edgesCross| ≥ 2 eps`) and every target. -/
theorem C13_location_inverts_bilinear (k : Cell) (x y p q : ℝ) (hc : k.edgesCross = 0 ∨ 2 * epsF ≤ |k.edgesCross|)
    (h : cell2relloc k x y = .ok (some (p, q))) : k.at p q = (x, y) := by
  obtain ⟨p1, p2, hr, hs⟩ := cell2relloc_ok h
  obtain ⟨hp, hq⟩ := cellSelect_spec hs
  rw [edgesCross_AA] at hc
  have heps : (0 : ℝ) < epsF := by unfold epsF; positivity
  have hroot : k.cf.AA * p ^ 2 + k.cf.BB (x - k.x1) (y - k.y1) * p + k.cf.CC (x - k.x1) (y - k.y1) = 0 := by
    rcases cellRoots_spec hr with ⟨h1, -, h3, h4⟩ | ⟨h1, -, h3, h4, -, -⟩
    · have hA : k.cf.AA = 0 := by
        rcases hc with hc | hc
        · exact hc
        · linarith
      rw [hA]
      rcases hp with rfl | rfl
      · linarith
      · rw [← h3]; linarith
    · rcases hp with rfl | rfl <;> assumption
  rw [← quad_identity] at hroot
  have e1 : k.cf.a * p + (k.cf.b + k.cf.c * p) * q = x - k.x1 ∧ k.cf.d * p + (k.cf.e + k.cf.f * p) * q = y - k.y1 := by
    rcases cellQ_spec hq with ⟨hb, -, e⟩ | ⟨-, hb, e⟩
    · refine ⟨by linarith, ?_⟩
      apply mul_left_cancel₀ hb
      linear_combination (k.cf.e + k.cf.f * p) * e + hroot
    · refine ⟨?_, by linarith⟩
      apply mul_left_cancel₀ hb
      linear_combination (k.cf.b + k.cf.c * p) * e - hroot
  ext
  · rw [at_fst]; linarith [e1.1]
  · rw [at_snd]; linarith [e1.2]

/-- **C71.** For the other cells (lower and upper edges nearly but not exactly parallel) the location is
exact along one axis, and the error along the other one times the extent of the cell is at most
`|edgesCross| p²`, hence less than `2 eps p²`. -/
theorem C71_location_error_partial (k : Cell) (x y p q : ℝ) (hc : |k.edgesCross| < 2 * epsF)
    (h : cell2relloc k x y = .ok (some (p, q))) :
    ((k.at p q).1 = x ∧ |(k.at p q).2 - y| * |(k.side p).1| = |k.edgesCross| * p ^ 2 ∧ 2 * epsF < |(k.side p).1|) ∨
    ((k.at p q).2 = y ∧ |(k.at p q).1 - x| * |(k.side p).2| = |k.edgesCross| * p ^ 2 ∧ |(k.side p).1| ≤ 2 * epsF ∧ (k.side p).2 ≠ 0) := by
  obtain ⟨p1, p2, hr, hs⟩ := cell2relloc_ok h
  obtain ⟨hp, hq⟩ := cellSelect_spec hs
  rw [edgesCross_AA] at hc ⊢
  rw [side_cf, at_fst, at_snd]
  have hroot : k.cf.BB (x - k.x1) (y - k.y1) * p + k.cf.CC (x - k.x1) (y - k.y1) = 0 := by
    rcases cellRoots_spec hr with ⟨h1, -, h3, h4⟩ | ⟨h1, -, h3, h4, -, -⟩
    · rcases hp with rfl | rfl
      · exact h4
      · rw [← h3]; exact h4
    · linarith
  have hid := quad_identity k.cf (x - k.x1) (y - k.y1) p
  rcases cellQ_spec hq with ⟨hb, hb2, e⟩ | ⟨hb2, hb, e⟩
  · left
    refine ⟨by linarith, ?_, hb2⟩
    have : (k.y1 + (k.cf.d * p + (k.cf.e + k.cf.f * p) * q) - y) * (k.cf.b + k.cf.c * p) = k.cf.AA * p ^ 2 := by
      linear_combination (k.cf.e + k.cf.f * p) * e + hid + hroot
    rw [← abs_mul, this, abs_mul, abs_of_nonneg (sq_nonneg p)]
  · right
    refine ⟨by linarith, ?_, hb2, hb⟩
    have : (k.x1 + (k.cf.a * p + (k.cf.b + k.cf.c * p) * q) - x) * (k.cf.e + k.cf.f * p) = -(k.cf.AA * p ^ 2) := by
      linear_combination (k.cf.b + k.cf.c * p) * e - hid - hroot
    rw [← abs_mul, this, abs_neg, abs_mul, abs_of_nonneg (sq_nonneg p)]

/-- **C71, violated.** The threshold `2 eps` on the cross product is absolute: in a small trapezoid
(side `2⁻²⁶` degree) the middle point is located at `(1, 1/4)`, on the right edge. -/
theorem C71_small_cell_violated :
    let l : ℝ := 1 / 2 ^ 26
    let k : Cell := ⟨0, 0, l, l, 0, l, 2 * l, 0⟩
    k.Convex ∧ cell2relloc k (l / 2) (l / 2) = .ok (some (1, 1 / 4)) ∧ k.at (1 / 2) (1 / 3) = (l / 2, l / 2) ∧
      k.at 1 (1 / 4) = (l, l / 2) := by
  refine ⟨?_, ?_, ?_, ?_⟩
  · left; norm_num [cross]
  · norm_num [cell2relloc, cellRoots, cellSelect, cellQ, divF, epsF, Except.map, Except.bind, abs_of_neg]
  · norm_num [Cell.at]
  · norm_num [Cell.at]

/-- **C71, violated.** In a convex trapezoid whose longitudes decrease along the first axis and whose
left and right sides are parallel, an inner point raises `ZeroDivisionError`. -/
theorem C71_trapezoid_zero_division_violated :
    let k : Cell := ⟨0, 0, -1, -1, 0, 1, 2, 0⟩
    k.Convex ∧ k.at (1 / 2) (1 / 3) = (-1 / 2, 1 / 2) ∧ cell2relloc k (-1 / 2) (1 / 2) = .error .zeroDivision := by
  refine ⟨?_, ?_, ?_⟩
  · right; norm_num [cross]
  · norm_num [Cell.at]
  · have hs : Real.sqrt (9 / 4) = 3 / 2 := by
      rw [show (9 / 4 : ℝ) = (3 / 2) ^ 2 by norm_num]; exact Real.sqrt_sq (by norm_num)
    norm_num [cell2relloc, cellRoots, cellSelect, cellQ, divF, epsF, Except.map, Except.bind, sqrtF, hs]

/-- **C13.** In a parallelogram cell that is not flat, a target generated from any `p` and `q` gives
back exactly `p` and `q` (the last hypothesis excludes cells of extent below `2 eps`). -/
theorem C13_parallelogram_exact (k : Cell) (p q : ℝ) (hx : k.x3 - k.x2 = k.x4 - k.x1) (hy : k.y3 - k.y2 = k.y4 - k.y1)
    (hdet : cross (k.x4 - k.x1, k.y4 - k.y1) (k.x2 - k.x1, k.y2 - k.y1) ≠ 0)
    (hsize : 2 * epsF < |k.x2 - k.x1| ∨ k.y2 ≠ k.y1) :
    cell2relloc k (k.at p q).1 (k.at p q).2 = .ok (some (p, q)) := by
  have hcc : k.cf.c = 0 := by simp only [Cell.cf]; linarith
  have hff : k.cf.f = 0 := by simp only [Cell.cf]; linarith
  have heps : (0 : ℝ) < epsF := by unfold epsF; positivity
  have hA : k.cf.AA = 0 := by simp only [Cf.AA, hcc, hff]; ring
  have hdet' : k.cf.a * k.cf.e - k.cf.d * k.cf.b ≠ 0 := by simpa only [cross, Cell.cf] using hdet
  rw [cell2relloc_cf]
  have ex : (k.at p q).1 - k.x1 = k.cf.a * p + k.cf.b * q := by rw [at_fst, hcc]; ring
  have ey : (k.at p q).2 - k.y1 = k.cf.d * p + k.cf.e * q := by rw [at_snd, hff]; ring
  rw [ex, ey, hA]
  have hB : k.cf.BB (k.cf.a * p + k.cf.b * q) (k.cf.d * p + k.cf.e * q) = -(k.cf.a * k.cf.e - k.cf.d * k.cf.b) := by
    simp only [Cf.BB, hcc, hff]; ring
  have hC : k.cf.CC (k.cf.a * p + k.cf.b * q) (k.cf.d * p + k.cf.e * q) = (k.cf.a * k.cf.e - k.cf.d * k.cf.b) * p := by
    simp only [Cf.CC]; ring
  rw [hB, hC]
  have hroots : cellRoots 0 (-(k.cf.a * k.cf.e - k.cf.d * k.cf.b)) ((k.cf.a * k.cf.e - k.cf.d * k.cf.b) * p) = .ok (some (p, p)) := by
    unfold cellRoots divF
    rw [if_pos (by rw [abs_zero]; linarith), if_neg (neg_ne_zero.mpr hdet')]
    simp only [Except.map]
    rw [neg_div_neg_eq, mul_div_cancel_left₀ _ hdet']
  have hq : cellQ k.cf.a k.cf.b k.cf.c k.cf.d k.cf.e k.cf.f (k.cf.a * p + k.cf.b * q) (k.cf.d * p + k.cf.e * q) p = .ok q := by
    unfold cellQ divF
    rw [hcc, hff, zero_mul, add_zero, add_zero]
    by_cases hb : |k.cf.b| > 2 * epsF
    · have hb0 : k.cf.b ≠ 0 := by intro h0; rw [h0, abs_zero] at hb; linarith
      rw [if_pos hb, if_neg hb0]
      rw [add_sub_cancel_left, mul_div_cancel_left₀ _ hb0]
    · have he0 : k.cf.e ≠ 0 := by
        rcases hsize with h | h
        · exact absurd h hb
        · simp only [Cell.cf]; exact sub_ne_zero.mpr h
      rw [if_neg hb, if_neg he0]
      rw [add_sub_cancel_left, mul_div_cancel_left₀ _ he0]
  rw [hroots]
  simp only [Except.bind, Option.elim_some, cellSelect, hq, Except.map, ite_self]

/-- **C13.** For every cell (same proviso on its edges) and every target lying in it, i.e. generated from
some `p, q` of [0, 1], the location that is returned is never NaN and is also in [0, 1]. -/
theorem C13_inside_located_inside (k : Cell) (p0 q0 : ℝ) (h0 : InUnit p0 q0) (hc : k.edgesCross = 0 ∨ 2 * epsF ≤ |k.edgesCross|)
    (r : Option (ℝ × ℝ)) (h : cell2relloc k (k.at p0 q0).1 (k.at p0 q0).2 = .ok r) :
    ∃ p q, r = some (p, q) ∧ InUnit p q ∧ k.at p q = k.at p0 q0 := by
  have heps : (0 : ℝ) < epsF := by unfold epsF; positivity
  have hc' := hc
  rw [edgesCross_AA] at hc
  have ex : (k.at p0 q0).1 - k.x1 = k.cf.a * p0 + (k.cf.b + k.cf.c * p0) * q0 := by rw [at_fst]; ring
  have ey : (k.at p0 q0).2 - k.y1 = k.cf.d * p0 + (k.cf.e + k.cf.f * p0) * q0 := by rw [at_snd]; ring
  -- p0 is a root
  have hroot : k.cf.AA * p0 ^ 2 + k.cf.BB ((k.at p0 q0).1 - k.x1) ((k.at p0 q0).2 - k.y1) * p0 + k.cf.CC ((k.at p0 q0).1 - k.x1) ((k.at p0 q0).2 - k.y1) = 0 := by
    rw [← quad_identity, ex, ey]; ring
  -- q from p0 is q0
  have hq0 : ∀ q, cellQ k.cf.a k.cf.b k.cf.c k.cf.d k.cf.e k.cf.f ((k.at p0 q0).1 - k.x1) ((k.at p0 q0).2 - k.y1) p0 = .ok q → q = q0 := by
    intro q hq
    rcases cellQ_spec hq with ⟨hb, -, e⟩ | ⟨-, hb, e⟩
    · rw [ex] at e; apply mul_left_cancel₀ hb; linarith
    · rw [ey] at e; apply mul_left_cancel₀ hb; linarith
  have key := h
  rw [cell2relloc_cf] at h
  set xx := (k.at p0 q0).1 - k.x1 with hxx
  set yy := (k.at p0 q0).2 - k.y1 with hyy
  cases hr : cellRoots k.cf.AA (k.cf.BB xx yy) (k.cf.CC xx yy) with
  | error e => rw [hr] at h; simp [Except.bind] at h
  | ok rr =>
    rw [hr] at h
    cases rr with
    | none =>
      exfalso
      unfold cellRoots at hr
      split at hr
      · cases hd : divF (-k.cf.CC xx yy) (k.cf.BB xx yy) with
        | error e => rw [hd] at hr; simp [Except.map] at hr
        | ok v => rw [hd] at hr; simp [Except.map] at hr
      · unfold sqrtF at hr
        split at hr
        · rename_i hD
          have : k.cf.BB xx yy ^ 2 - 4 * k.cf.AA * k.cf.CC xx yy = (2 * k.cf.AA * p0 + k.cf.BB xx yy) ^ 2 := by
            linear_combination (-4 * k.cf.AA) * hroot
          rw [this] at hD
          linarith [sq_nonneg (2 * k.cf.AA * p0 + k.cf.BB xx yy)]
        · simp at hr
    | some pp =>
      obtain ⟨p1, p2⟩ := pp
      have hp0 : p0 = p1 ∨ p0 = p2 := by
        rcases cellRoots_spec hr with ⟨h1, h2, h3, h4⟩ | ⟨h1, h2, -, -, h3, h4⟩
        · have hA : k.cf.AA = 0 := by
            rcases hc with hc | hc
            · exact hc
            · linarith
          left
          rw [hA] at hroot
          apply mul_left_cancel₀ h2; linarith
        · have hA0 : k.cf.AA ≠ 0 := by intro hz; rw [hz, abs_zero] at h1; linarith
          have hD : k.cf.BB xx yy ^ 2 - 4 * k.cf.AA * k.cf.CC xx yy = (2 * k.cf.AA * p0 + k.cf.BB xx yy) ^ 2 := by
            linear_combination (-4 * k.cf.AA) * hroot
          rw [hD, Real.sqrt_sq_eq_abs] at h3 h4
          rcases abs_cases (2 * k.cf.AA * p0 + k.cf.BB xx yy) with ⟨ha, -⟩ | ⟨ha, -⟩ <;> rw [ha] at h3 h4
          · right; rw [h4]; field_simp; ring
          · left; rw [h3]; field_simp; ring
      simp only [Except.bind, Option.elim_some, cellSelect] at h
      cases h1 : cellQ k.cf.a k.cf.b k.cf.c k.cf.d k.cf.e k.cf.f xx yy p1 with
      | error e => rw [h1] at h; simp [Except.map] at h
      | ok q1 =>
        rw [h1] at h
        simp only at h
        split at h
        · rename_i hout
          -- the first solution is outside: p0 is the second one
          have hne : p0 ≠ p1 := by
            intro he
            rw [← he] at h1 hout
            have := hq0 q1 h1
            subst this
            obtain ⟨a1, a2, a3, a4⟩ := h0
            rcases hout with h' | h' | h' | h' <;> linarith
          have hp2 := hp0.resolve_left hne
          cases h2 : cellQ k.cf.a k.cf.b k.cf.c k.cf.d k.cf.e k.cf.f xx yy p2 with
          | error e => rw [h2] at h; simp [Except.map] at h
          | ok q2 =>
            rw [h2] at h
            simp only [Except.map, Except.ok.injEq] at h
            rw [← hp2] at h h2
            have := hq0 q2 h2
            subst this
            exact ⟨p0, q2, h.symm, h0, rfl⟩
        · rename_i hin
          push Not at hin
          simp only [Except.map, Except.ok.injEq] at h
          subst h
          exact ⟨p1, q1, rfl, ⟨hin.1, hin.2.1, hin.2.2.1, hin.2.2.2⟩, C13_location_inverts_bilinear k _ _ p1 q1 hc' key⟩

/-- the Jacobian of the bilinear map of a strictly convex cell does not vanish on the unit square -/
theorem convex_jacobian (k : Cell) (hk : k.Convex) (P Q : ℝ) (hP0 : 0 ≤ P) (hP1 : 0 ≤ 1 - P) (hQ0 : 0 ≤ Q) (hQ1 : 0 ≤ 1 - Q) :
    (k.cf.a + k.cf.c * Q) * (k.cf.e + k.cf.f * P) - (k.cf.b + k.cf.c * P) * (k.cf.d + k.cf.f * Q) ≠ 0 := by
  simp only [Cell.Convex, cross] at hk
  have comb : (k.cf.a + k.cf.c * Q) * (k.cf.e + k.cf.f * P) - (k.cf.b + k.cf.c * P) * (k.cf.d + k.cf.f * Q) =
      (1 - P) * (1 - Q) * ((k.x4 - k.x1) * (k.y2 - k.y1) - (k.y4 - k.y1) * (k.x2 - k.x1)) +
      (1 - P) * Q * ((k.x1 - k.x2) * (k.y3 - k.y2) - (k.y1 - k.y2) * (k.x3 - k.x2)) +
      P * Q * ((k.x2 - k.x3) * (k.y4 - k.y3) - (k.y2 - k.y3) * (k.x4 - k.x3)) +
      P * (1 - Q) * ((k.x3 - k.x4) * (k.y1 - k.y4) - (k.y3 - k.y4) * (k.x1 - k.x4)) := by
    simp only [Cell.cf]; ring
  rw [comb]
  have pos : ∀ t1 t2 t3 t4 : ℝ, 0 < t1 → 0 < t2 → 0 < t3 → 0 < t4 →
      0 < (1 - P) * (1 - Q) * t1 + (1 - P) * Q * t2 + P * Q * t3 + P * (1 - Q) * t4 := by
    intro t1 t2 t3 t4 h1 h2 h3 h4
    obtain ⟨m, hm, hm1, hm2, hm3, hm4⟩ : ∃ m : ℝ, 0 < m ∧ m ≤ t1 ∧ m ≤ t2 ∧ m ≤ t3 ∧ m ≤ t4 :=
      ⟨min (min t1 t2) (min t3 t4), by positivity, by simp, by simp, by simp, by simp⟩
    have w1 : (1 - P) * (1 - Q) * m ≤ (1 - P) * (1 - Q) * t1 := mul_le_mul_of_nonneg_left hm1 (by positivity)
    have w2 : (1 - P) * Q * m ≤ (1 - P) * Q * t2 := mul_le_mul_of_nonneg_left hm2 (by positivity)
    have w3 : P * Q * m ≤ P * Q * t3 := mul_le_mul_of_nonneg_left hm3 (by positivity)
    have w4 : P * (1 - Q) * m ≤ P * (1 - Q) * t4 := mul_le_mul_of_nonneg_left hm4 (by positivity)
    have : (1 - P) * (1 - Q) * m + (1 - P) * Q * m + P * Q * m + P * (1 - Q) * m = m := by ring
    linarith
  rcases hk with ⟨t1, t2, t3, t4⟩ | ⟨t1, t2, t3, t4⟩
  · exact (pos _ _ _ _ t1 t2 t3 t4).ne'
  · have := pos _ _ _ _ (neg_pos.mpr t1) (neg_pos.mpr t2) (neg_pos.mpr t3) (neg_pos.mpr t4)
    intro h0; linarith

/-- the bilinear map of a strictly convex cell is injective on the unit square -/
theorem convex_injective (k : Cell) (hk : k.Convex) (p q p' q' : ℝ) (h : InUnit p q) (h' : InUnit p' q') (e : k.at p q = k.at p' q') :
    p = p' ∧ q = q' := by
  have ex := congrArg Prod.fst e
  have ey := congrArg Prod.snd e
  rw [at_fst, at_fst] at ex
  rw [at_snd, at_snd] at ey
  obtain ⟨a1, a2, a3, a4⟩ := h
  obtain ⟨b1, b2, b3, b4⟩ := h'
  set P := (p + p') / 2 with hP
  set Q := (q + q') / 2 with hQ
  have hP0 : 0 ≤ P := by rw [hP]; linarith
  have hP1 : 0 ≤ 1 - P := by rw [hP]; linarith
  have hQ0 : 0 ≤ Q := by rw [hQ]; linarith
  have hQ1 : 0 ≤ 1 - Q := by rw [hQ]; linarith
  have E1 : (p - p') * (k.cf.a + k.cf.c * Q) + (q - q') * (k.cf.b + k.cf.c * P) = 0 := by rw [hP, hQ]; linear_combination ex
  have E2 : (p - p') * (k.cf.d + k.cf.f * Q) + (q - q') * (k.cf.e + k.cf.f * P) = 0 := by rw [hP, hQ]; linear_combination ey
  have hJ := convex_jacobian k hk P Q hP0 hP1 hQ0 hQ1
  have d1 : p - p' = 0 := by
    apply (mul_eq_zero.mp _).resolve_right hJ
    linear_combination (k.cf.e + k.cf.f * P) * E1 - (k.cf.b + k.cf.c * P) * E2
  have d2 : q - q' = 0 := by
    apply (mul_eq_zero.mp _).resolve_right hJ
    linear_combination (k.cf.a + k.cf.c * Q) * E2 - (k.cf.d + k.cf.f * Q) * E1
  exact ⟨by linarith, by linarith⟩

/-- **C13.** `cell2relloc` raises nothing but `ZeroDivisionError`, and only when the vector from the lower to
the upper edge vanishes (up to `2 eps` along x) for some `p`, or when the edges are nearly
parallel and the linear equation for `p` has no unknown. -/
theorem C13_error_only (k : Cell) (x y : ℝ) (e : LocErr) (h : cell2relloc k x y = .error e) :
    e = .zeroDivision ∧ ((∃ p, |(k.side p).1| ≤ 2 * epsF ∧ (k.side p).2 = 0) ∨
      (|k.edgesCross| < 2 * epsF ∧ cross (x - k.x1, y - k.y1) (k.x3 - k.x4 - (k.x2 - k.x1), k.y3 - k.y4 - (k.y2 - k.y1)) =
        cross (k.x4 - k.x1, k.y4 - k.y1) (k.x2 - k.x1, k.y2 - k.y1))) := by
  have heps : (0 : ℝ) < epsF := by unfold epsF; positivity
  have hq : ∀ p e', cellQ k.cf.a k.cf.b k.cf.c k.cf.d k.cf.e k.cf.f (x - k.x1) (y - k.y1) p = .error e' →
      e' = .zeroDivision ∧ |(k.side p).1| ≤ 2 * epsF ∧ (k.side p).2 = 0 := by
    intro p e' h
    rw [side_cf]
    unfold cellQ divF at h
    split at h
    · rename_i hb
      rw [if_neg (by intro h0; rw [h0, abs_zero] at hb; linarith)] at h; simp at h
    · rename_i hb
      split at h
      · rename_i h0
        simp only [Except.error.injEq] at h
        exact ⟨h.symm, not_lt.mp hb, h0⟩
      · simp at h
  rw [cell2relloc_cf] at h
  cases hr : cellRoots k.cf.AA (k.cf.BB (x - k.x1) (y - k.y1)) (k.cf.CC (x - k.x1) (y - k.y1)) with
  | error e' =>
    rw [hr] at h
    simp only [Except.bind, Except.error.injEq] at h
    subst h
    unfold cellRoots divF at hr
    split at hr
    · rename_i hA
      split at hr
      · rename_i h0
        simp only [Except.map, Except.error.injEq] at hr
        refine ⟨hr.symm, Or.inr ⟨by rw [edgesCross_AA]; exact hA, ?_⟩⟩
        simp only [Cf.BB, Cell.cf] at h0
        simp only [cross]; linarith
      · simp [Except.map] at hr
    · simp at hr
  | ok r =>
    rw [hr] at h
    cases r with
    | none => simp [Except.bind] at h
    | some pp =>
      simp only [Except.bind, Option.elim_some, cellSelect] at h
      cases h1 : cellQ k.cf.a k.cf.b k.cf.c k.cf.d k.cf.e k.cf.f (x - k.x1) (y - k.y1) pp.1 with
      | error e' =>
        rw [h1] at h
        simp only [Except.map, Except.error.injEq] at h
        subst h
        exact ⟨(hq _ _ h1).1, Or.inl ⟨_, (hq _ _ h1).2⟩⟩
      | ok q1 =>
        rw [h1] at h
        simp only at h
        split at h
        · cases h2 : cellQ k.cf.a k.cf.b k.cf.c k.cf.d k.cf.e k.cf.f (x - k.x1) (y - k.y1) pp.2 with
          | error e' =>
            rw [h2] at h
            simp only [Except.map, Except.error.injEq] at h
            subst h
            exact ⟨(hq _ _ h2).1, Or.inl ⟨_, (hq _ _ h2).2⟩⟩
          | ok q2 => rw [h2] at h; simp [Except.map] at h
        · simp [Except.map] at h

/-- **C13.** In a strictly convex cell (same proviso on its edges), a target generated from `p, q` in [0, 1]
gives back exactly `p` and `q`, unless a division by zero is raised. -/
theorem C13_convex_exact (k : Cell) (hk : k.Convex) (hc : k.edgesCross = 0 ∨ 2 * epsF ≤ |k.edgesCross|) (p q : ℝ) (hpq : InUnit p q) :
    cell2relloc k (k.at p q).1 (k.at p q).2 = .ok (some (p, q)) ∨ cell2relloc k (k.at p q).1 (k.at p q).2 = .error .zeroDivision := by
  cases h : cell2relloc k (k.at p q).1 (k.at p q).2 with
  | error e =>
    right
    rw [(C13_error_only k _ _ e h).1]
  | ok r =>
    left
    obtain ⟨p', q', rfl, hin, he⟩ := C13_inside_located_inside k p q hpq hc r h
    obtain ⟨rfl, rfl⟩ := convex_injective k hk _ _ _ _ hin hpq he
    rfl

/-- **C13.** In a strictly convex cell (same proviso on its edges) in which the vector from the lower to the
upper edge never vanishes, a target generated from `p, q` in [0, 1] always gives back exactly
`p` and `q`. -/
theorem C13_convex_exact_total (k : Cell) (hk : k.Convex) (hc : k.edgesCross = 0 ∨ 2 * epsF ≤ |k.edgesCross|)
    (hs : ∀ p, 2 * epsF < |(k.side p).1| ∨ (k.side p).2 ≠ 0) (p q : ℝ) (hpq : InUnit p q) :
    cell2relloc k (k.at p q).1 (k.at p q).2 = .ok (some (p, q)) := by
  rcases C13_convex_exact k hk hc p q hpq with h | h
  · exact h
  · exfalso
    rcases (C13_error_only k _ _ _ h).2 with ⟨p', h1, h2⟩ | ⟨h1, h2⟩
    · rcases hs p' with h3 | h3
      · linarith
      · exact h3 h2
    · have h0 : k.edgesCross = 0 := by
        rcases hc with hc | hc
        · exact hc
        · linarith
      obtain ⟨a1, a2, a3, a4⟩ := hpq
      have hJ := convex_jacobian k hk p q a1 (by linarith) a3 (by linarith)
      apply hJ
      rw [edgesCross_AA] at h0
      simp only [cross] at h2
      have ex : (k.at p q).1 - k.x1 = k.cf.a * p + (k.cf.b + k.cf.c * p) * q := by rw [at_fst]; ring
      have ey : (k.at p q).2 - k.y1 = k.cf.d * p + (k.cf.e + k.cf.f * p) * q := by rw [at_snd]; ring
      rw [ex, ey] at h2
      simp only [Cf.AA] at h0
      have h2' : (k.cf.a * p + (k.cf.b + k.cf.c * p) * q) * k.cf.f - (k.cf.d * p + (k.cf.e + k.cf.f * p) * q) * k.cf.c =
          k.cf.a * k.cf.e - k.cf.d * k.cf.b := by
        have ec : k.cf.c = k.x3 - k.x4 - (k.x2 - k.x1) := by simp only [Cell.cf]; ring
        have ef : k.cf.f = k.y3 - k.y4 - (k.y2 - k.y1) := by simp only [Cell.cf]; ring
        have ea : k.cf.a * k.cf.e - k.cf.d * k.cf.b = (k.x4 - k.x1) * (k.y2 - k.y1) - (k.y4 - k.y1) * (k.x2 - k.x1) := by simp only [Cell.cf]
        rw [ea, ← h2, ← ec, ← ef]
      linear_combination (-1 : ℝ) * h2' - 2 * p * h0

/-- the hypotheses are met by a general convex cell, and its location is computed -/
example : let k : Cell := ⟨0, 1, 4, 3, 0, 2, 4, 1⟩
    k.Convex ∧ 2 * epsF ≤ |k.edgesCross| ∧ k.at (1 / 2) (1 / 2) = (2, 7 / 4) ∧ ∀ p, 2 * epsF < |(k.side p).1| ∨ (k.side p).2 ≠ 0 := by
  refine ⟨Or.inl (by norm_num [cross]), by norm_num [Cell.edgesCross, cross, epsF], by norm_num [Cell.at], fun p => Or.inl ?_⟩
  simp only [Cell.side]
  ring_nf
  norm_num [epsF]

/-- the example of the docstring of `cell2relloc` -/
example : cell2relloc ⟨0, -2, 0, 2, 0, 1, 1, 0⟩ 0 (1 / 2) = .ok (some (1 / 2, 1 / 2)) := by
  have := C13_parallelogram_exact ⟨0, -2, 0, 2, 0, 1, 1, 0⟩ (1 / 2) (1 / 2) (by norm_num) (by norm_num) (by norm_num [cross])
    (Or.inr (by norm_num))
  norm_num [Cell.at] at this ⊢
  exact this

end Xoa
