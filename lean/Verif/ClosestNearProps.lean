import Verif.ClosestProps
import Mathlib.Tactic.IntervalCases

/-!
# C237: errors in the positions, and parts of a grid

No new model. `closest2d` (xoa/interp.py:549-580) with `haversine` (xoa/interp.py:521-546), in exact arithmetic.
-/

namespace Xoa

open Real

/-! ## Specification -/

/-- two grids of the same size, with the same known points, that are at an angle of at most `e` from each other -/
structure NearGrid (g g' : Grid2) (e : ℝ) : Prop where
  ny : g'.ny = g.ny
  nx : g'.nx = g.nx
  known : ∀ j i lon lat, j < g.ny → i < g.nx → g.lon j i = some lon → g.lat j i = some lat →
    ∃ lon' lat', g'.lon j i = some lon' ∧ g'.lat j i = some lat' ∧ greatCircle lon lat lon' lat' ≤ e
  unknown : ∀ j i lon' lat', j < g.ny → i < g.nx → g'.lon j i = some lon' → g'.lat j i = some lat' →
    ∃ lon lat, g.lon j i = some lon ∧ g.lat j i = some lat

/-- `g'` is the part of `g` that starts at row `b` and column `a` -/
structure GridPart (g' g : Grid2) (a b : Nat) : Prop where
  nx : a + g'.nx ≤ g.nx
  ny : b + g'.ny ≤ g.ny
  lon : ∀ j i, j < g'.ny → i < g'.nx → g'.lon j i = g.lon (b + j) (a + i)
  lat : ∀ j i, j < g'.ny → i < g'.nx → g'.lat j i = g.lat (b + j) (a + i)

/-! ## Proofs -/

theorem gc_triangle (a b c d e f : ℝ) : greatCircle a b e f ≤ greatCircle a b c d + greatCircle c d e f :=
  InnerProductGeometry.angle_le_angle_add_angle ..

theorem gc_symm (a b c d : ℝ) : greatCircle a b c d = greatCircle c d a b := InnerProductGeometry.angle_comm _ _

theorem pointDist_near {g g' : Grid2} {e : ℝ} (h : NearGrid g g' e) {xo yo xo' yo' d : ℝ} (ht : greatCircle xo yo xo' yo' ≤ d) {i j : Nat} {r : ℝ} (hr : PointDist g xo yo i j r) :
    ∃ r', PointDist g' xo' yo' i j r' ∧ |r' - r| ≤ d + e := by
  obtain ⟨hj, hi, x, y, hx, hy, rfl⟩ := hr
  obtain ⟨x', y', a, b, c⟩ := h.known j i x y hj hi hx hy
  refine ⟨_, ⟨by rw [h.ny]; exact hj, by rw [h.nx]; exact hi, x', y', a, b, rfl⟩, ?_⟩
  have t1 := gc_triangle xo' yo' xo yo x' y'
  have t2 := gc_triangle xo yo x y x' y'
  have t3 := gc_triangle xo yo xo' yo' x y
  have t4 := gc_triangle xo' yo' x' y' x y
  rw [gc_symm xo' yo' xo yo] at t1
  rw [gc_symm x' y' x y] at t4
  rw [abs_le]
  constructor <;> linarith

theorem pointDist_back {g g' : Grid2} {e : ℝ} (h : NearGrid g g' e) {xo yo xo' yo' d : ℝ} (ht : greatCircle xo yo xo' yo' ≤ d) {i j : Nat} {r' : ℝ} (hr : PointDist g' xo' yo' i j r') :
    ∃ r, PointDist g xo yo i j r ∧ |r' - r| ≤ d + e := by
  obtain ⟨hj, hi, x', y', hx', hy', rfl⟩ := hr
  rw [h.ny] at hj
  rw [h.nx] at hi
  obtain ⟨x, y, hx, hy⟩ := h.unknown j i x' y' hj hi hx' hy'
  obtain ⟨r', ⟨-, -, u, v, a, b, rfl⟩, c⟩ := pointDist_near h ht (i := i) (j := j) ⟨hj, hi, x, y, hx, hy, rfl⟩
  rw [hx'] at a; rw [hy'] at b
  cases a; cases b
  exact ⟨_, ⟨hj, hi, x, y, hx, hy, rfl⟩, c⟩

theorem pointDist_unique {g : Grid2} {xo yo : ℝ} {i j : Nat} {r r' : ℝ} (h : PointDist g xo yo i j r) (h' : PointDist g xo yo i j r') : r = r' := by
  obtain ⟨-, -, x, y, a, b, rfl⟩ := h
  obtain ⟨-, -, x', y', a', b', rfl⟩ := h'
  rw [a] at a'; rw [b] at b'
  cases a'; cases b'; rfl

/-! ## The property -/

/-- **C237, errors.** When the target is moved by an angle of at most `d` and the points of the grid by at most `e`, `closest2d` returns a point that is, in the original grid, at most `2 (d + e)` further from the original target
than the closest one. -/
theorem C237_errors (g g' : Grid2) (e d xo yo xo' yo' : ℝ) (h : NearGrid g g' e) (ht : greatCircle xo yo xo' yo' ≤ d) (i j : Nat)
    (hc : closest2d g' (some xo') (some yo') = .ok (i, j)) :
    ∃ r, PointDist g xo yo i j r ∧ ∀ i1 j1 r1, PointDist g xo yo i1 j1 r1 → r ≤ r1 + 2 * (d + e) := by
  obtain ⟨r', hr', hmin⟩ := C12_closest_minimal g' xo' yo' i j hc
  obtain ⟨r, hr, hd⟩ := pointDist_back h ht hr'
  refine ⟨r, hr, fun i1 j1 r1 h1 => ?_⟩
  obtain ⟨r1', h1', hd1⟩ := pointDist_near h ht h1
  have := hmin i1 j1 r1' h1'
  rw [abs_le] at hd hd1
  linarith [hd.1, hd.2, hd1.1, hd1.2]

/-- **C237, same point.** A point that is closer to the target than all the others by more than `2 (d + e)`, and not within `d + e` of its antipode, is returned with and without these errors. -/
theorem C237_same (g g' : Grid2) (e d xo yo xo' yo' : ℝ) (h : NearGrid g g' e) (ht : greatCircle xo yo xo' yo' ≤ d) (i j : Nat) (r : ℝ) (hr : PointDist g xo yo i j r) (hp : r < π - (d + e))
    (hfar : ∀ i1 j1 r1, PointDist g xo yo i1 j1 r1 → (i1, j1) ≠ (i, j) → r + 2 * (d + e) < r1) :
    closest2d g' (some xo') (some yo') = .ok (i, j) ∧ closest2d g (some xo) (some yo) = .ok (i, j) := by
  have hde : 0 ≤ d + e := by
    obtain ⟨r', -, h'⟩ := pointDist_near h ht hr
    exact le_trans (abs_nonneg _) h'
  have main : ∀ (g1 : Grid2) (x1 y1 : ℝ) (i1 j1 : Nat), closest2d g1 (some x1) (some y1) = .ok (i1, j1) →
      (∃ r1, PointDist g xo yo i1 j1 r1 ∧ ∀ i2 j2 r2, PointDist g xo yo i2 j2 r2 → r1 ≤ r2 + 2 * (d + e)) → closest2d g1 (some x1) (some y1) = .ok (i, j) := by
    rintro g1 x1 y1 i1 j1 h1 ⟨r1, a, b⟩
    by_cases hn : (i1, j1) = (i, j)
    · rw [h1, hn]
    · have := hfar i1 j1 r1 a hn
      have := b i j r hr
      linarith
  constructor
  · obtain ⟨r', hr', hd⟩ := pointDist_near h ht hr
    rw [abs_le] at hd
    obtain ⟨⟨i1, j1⟩, h1⟩ := (C70_closest_defined_iff_partial g' xo' yo').2 ⟨i, j, r', hr', by linarith [hd.2]⟩
    exact main g' xo' yo' i1 j1 h1 (C237_errors g g' e d xo yo xo' yo' h ht i1 j1 h1)
  · obtain ⟨⟨i1, j1⟩, h1⟩ := (C70_closest_defined_iff_partial g xo yo).2 ⟨i, j, r, hr, by linarith⟩
    obtain ⟨r1, a, b⟩ := C12_closest_minimal g xo yo i1 j1 h1
    exact main g xo yo i1 j1 h1 ⟨r1, a, fun i2 j2 r2 h2 => by linarith [b i2 j2 r2 h2]⟩

/-- **C237, part of a grid.** When the closest point of a grid is in a rectangular part of it, it is the closest point of the part. -/
theorem C237_part (g g' : Grid2) (a b : Nat) (h : GridPart g' g a b) (xo yo : ℝ) (i j : Nat) (hi : i < g'.nx) (hj : j < g'.ny)
    (hc : closest2d g (some xo) (some yo) = .ok (a + i, b + j)) : closest2d g' (some xo) (some yo) = .ok (i, j) := by
  have up : ∀ i1 j1 r1, PointDist g' xo yo i1 j1 r1 → PointDist g xo yo (a + i1) (b + j1) r1 := by
    rintro i1 j1 r1 ⟨h1, h2, x, y, hx, hy, e⟩
    exact ⟨by have := h.ny; omega, by have := h.nx; omega, x, y, by rw [← h.lon j1 i1 h1 h2, hx], by rw [← h.lat j1 i1 h1 h2, hy], e⟩
  have down : ∀ i1 j1 r1, i1 < g'.nx → j1 < g'.ny → PointDist g xo yo (a + i1) (b + j1) r1 → PointDist g' xo yo i1 j1 r1 := by
    rintro i1 j1 r1 h1 h2 ⟨-, -, x, y, hx, hy, e⟩
    exact ⟨h2, h1, x, y, by rw [h.lon j1 i1 h2 h1, hx], by rw [h.lat j1 i1 h2 h1, hy], e⟩
  obtain ⟨r, hr, hmin⟩ := C12_closest_minimal g xo yo _ _ hc
  have hr' := down i j r hi hj hr
  obtain ⟨i0, j0, r0, hr0, hlt⟩ := (C70_closest_defined_iff_partial g xo yo).1 ⟨_, hc⟩
  obtain ⟨⟨i1, j1⟩, h1⟩ := (C70_closest_defined_iff_partial g' xo yo).2 ⟨i, j, r, hr', lt_of_le_of_lt (hmin i0 j0 r0 hr0) hlt⟩
  obtain ⟨r1, hr1, hmin1⟩ := C12_closest_minimal g' xo yo i1 j1 h1
  have e : r1 = r := le_antisymm (hmin1 i j r hr') (hmin _ _ r1 (up i1 j1 r1 hr1))
  subst e
  have f1 := C12_closest_first g xo yo _ _ hc (a + i1) (b + j1) r1 hr (up i1 j1 r1 hr1)
  have f2 := C12_closest_first g' xo yo i1 j1 h1 i j r1 hr1 hr'
  rw [h1]
  have hi' : i1 = i := by omega
  have hj' : j1 = j := by omega
  rw [hi', hj']

theorem gc_meridian (lon a b : ℝ) (h : |a - b| ≤ 180) : greatCircle lon a lon b = |a - b| * π / 180 := by
  have h := C11_haversine_meridian lon a b h
  rw [C11_haversine_is_great_circle] at h
  exact Option.some.inj h

/-- the hypotheses of `C237_same`: two points of a meridian, at latitudes 0 and 90, a target at latitude 10, and an error of one degree on the target and on the first point -/
theorem near_case :
    let g : Grid2 := ⟨2, 1, fun _ _ => some 0, fun j _ => some (90 * (j : ℝ))⟩
    let g' : Grid2 := ⟨2, 1, fun _ _ => some 0, fun j _ => some (1 + 89 * (j : ℝ))⟩
    closest2d g' (some 0) (some 11) = .ok (0, 0) ∧ closest2d g (some 0) (some 10) = .ok (0, 0) := by
  have hpi := pi_pos
  intro g g'
  refine C237_same g g' (π / 180) (π / 180) 0 10 0 11 ⟨rfl, rfl, ?_, ?_⟩ ?_ 0 0 (10 * π / 180) ⟨Nat.zero_lt_two, Nat.zero_lt_one, 0, 0, rfl, by simp [g], ?_⟩ (by linarith) ?_
  · intro j i lon lat hj _ h1 h2
    cases h1; cases h2
    refine ⟨_, _, rfl, rfl, ?_⟩
    have hj : j < 2 := hj
    interval_cases j
    · rw [gc_meridian _ _ _ (by norm_num [abs_le])]; norm_num
    · rw [gc_meridian _ _ _ (by norm_num [abs_le])]; norm_num; linarith
  · intro j i lon lat _ _ _ _
    exact ⟨_, _, rfl, rfl⟩
  · rw [gc_meridian _ _ _ (by norm_num [abs_le])]; norm_num
  · rw [gc_meridian _ _ _ (by norm_num [abs_le])]; norm_num
  · rintro i1 j1 r1 ⟨hj, hi, x, y, h1, h2, rfl⟩ hne
    cases h1; cases h2
    have hj : j1 < 2 := hj
    have hi : i1 < 1 := hi
    interval_cases i1
    interval_cases j1
    · exact absurd rfl hne
    · rw [gc_meridian _ _ _ (by norm_num [abs_le])]
      norm_num
      linarith

/-- the hypotheses of `C237_part`: the first row of the same grid -/
example : closest2d ⟨1, 1, fun _ _ => some 0, fun j _ => some (90 * (j : ℝ))⟩ (some 0) (some 10) = .ok (0, 0) :=
  C237_part ⟨2, 1, fun _ _ => some 0, fun j _ => some (90 * (j : ℝ))⟩ _ 0 0 ⟨by decide, by decide, fun _ _ _ _ => rfl, fun j _ _ _ => by simp⟩ 0 10 0 0 (by decide) (by decide) near_case.2

end Xoa
