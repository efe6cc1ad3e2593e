import Verif.ClosestProps
import Verif.CellLocProps

/-!
# C14: the relative location in a grid
-/

namespace Xoa

open Real

theorem epsF_pos : (0 : ℝ) < epsF := by unfold epsF; positivity

theorem locRange_window (c n : Nat) :
    locRange (max ((c : Int) - 1) 0) (min (c : Int) ((n : Int) - 2)) = if 1 ≤ c ∧ c + 2 ≤ n then [c - 1] else [] := by
  unfold locRange
  split
  · rename_i h
    have h1 : (min (c : Int) ((n : Int) - 2) - max ((c : Int) - 1) 0).toNat = 1 := by omega
    have h2 : (max ((c : Int) - 1) 0).toNat = c - 1 := by omega
    rw [h1, h2]; rfl
  · rename_i h
    have h1 : (min (c : Int) ((n : Int) - 2) - max ((c : Int) - 1) 0).toNat = 0 := by omega
    rw [h1]; rfl

/-- the whole search: only the cell whose upper right corner is the closest point is examined -/
theorem grid2relloc_window (g : Grid2) (xo yo : Option ℝ) (ic jc : Nat) (h : closest2d g xo yo = .ok (ic, jc)) :
    grid2relloc g xo yo =
      if (1 ≤ ic ∧ ic + 2 ≤ g.nx) ∧ 1 ≤ jc ∧ jc + 2 ≤ g.ny then
        (cellLoc g xo yo (jc - 1) (ic - 1)).map fun r =>
          r.elim (-1, -1) fun ab => if inCell ab then (((ic - 1 : Nat) : ℝ) + ab.1, ((jc - 1 : Nat) : ℝ) + ab.2) else (-1, -1)
      else .ok (-1, -1) := by
  unfold grid2relloc
  rw [h]
  simp only [Except.bind]
  rw [locRange_window, locRange_window]
  by_cases hi : 1 ≤ ic ∧ ic + 2 ≤ g.nx
  · by_cases hj : 1 ≤ jc ∧ jc + 2 ≤ g.ny
    · rw [if_pos hi, if_pos hj, if_pos ⟨hi, hj⟩]
      simp only [relOuter, relInner]
      cases hc : cellLoc g xo yo (jc - 1) (ic - 1) with
      | error e => simp [Except.bind, Except.map]
      | ok r =>
        cases r with
        | none => simp [Except.bind, Except.map]
        | some ab => by_cases hin : inCell ab = true <;> simp [Except.bind, Except.map, hin]
    · rw [if_pos hi, if_neg hj, if_neg (fun h => hj h.2)]
      simp [relOuter, relInner, Except.bind, Except.map]
  · rw [if_neg (c := (1 ≤ ic ∧ ic + 2 ≤ g.nx) ∧ 1 ≤ jc ∧ jc + 2 ≤ g.ny) (fun h => hi h.1), if_neg hi]
    simp [relOuter, Except.map]

theorem inCell_iff (ab : ℝ × ℝ) : inCell ab = true ↔ -epsF ≤ ab.1 ∧ ab.1 ≤ 1 + epsF ∧ -epsF ≤ ab.2 ∧ ab.2 ≤ 1 + epsF := by
  unfold inCell; simp

/-- the cell `(j, i)` of the grid has the corners `k` -/
def HasCell (g : Grid2) (j i : Nat) (k : Cell) : Prop :=
  j + 1 < g.ny ∧ i + 1 < g.nx ∧
  g.lon j i = some k.x1 ∧ g.lon (j + 1) i = some k.x2 ∧ g.lon (j + 1) (i + 1) = some k.x3 ∧ g.lon j (i + 1) = some k.x4 ∧
  g.lat j i = some k.y1 ∧ g.lat (j + 1) i = some k.y2 ∧ g.lat (j + 1) (i + 1) = some k.y3 ∧ g.lat j (i + 1) = some k.y4

theorem cell_some (g : Grid2) (j i : Nat) (k : Cell) (hj : j + 1 < g.ny) (hi : i + 1 < g.nx) : g.cell j i = some k ↔ HasCell g j i k := by
  unfold Grid2.cell HasCell
  obtain ⟨x1, x2, x3, x4, y1, y2, y3, y4⟩ := k
  cases g.lon j i <;> cases g.lon (j + 1) i <;> cases g.lon (j + 1) (i + 1) <;> cases g.lon j (i + 1) <;>
  cases g.lat j i <;> cases g.lat (j + 1) i <;> cases g.lat (j + 1) (i + 1) <;> cases g.lat j (i + 1) <;> simp [hj, hi]

/-- **C14.** Whenever `grid2relloc` returns, it returns either `(-1, -1)` or `(i + a, j + b)` where `(j, i)`
is a cell of the grid and `a`, `b` are in [-eps, 1 + eps] and locate the target in this cell by the
bilinear map (exactly, if the lower and upper edges of the cell are exactly parallel or not nearly so). -/
theorem C14_relloc_sound (g : Grid2) (x y p q : ℝ) (h : grid2relloc g (some x) (some y) = .ok (p, q)) :
    (p = -1 ∧ q = -1) ∨
    ∃ i j a b k, HasCell g j i k ∧ p = i + a ∧ q = j + b ∧ -epsF ≤ a ∧ a ≤ 1 + epsF ∧ -epsF ≤ b ∧ b ≤ 1 + epsF ∧
      (k.edgesCross = 0 ∨ 2 * epsF ≤ |k.edgesCross| → k.at a b = (x, y)) := by
  cases hc : closest2d g (some x) (some y) with
  | error e => unfold grid2relloc at h; rw [hc] at h; simp [Except.bind] at h
  | ok c =>
    obtain ⟨ic, jc⟩ := c
    rw [grid2relloc_window g _ _ ic jc hc] at h
    split at h
    · rename_i hw
      cases hl : cellLoc g (some x) (some y) (jc - 1) (ic - 1) with
      | error e => rw [hl] at h; simp [Except.map] at h
      | ok r =>
        rw [hl] at h
        simp only [Except.map, Except.ok.injEq] at h
        cases r with
        | none => simp only [Option.elim_none, Prod.mk.injEq] at h; left; exact ⟨h.1.symm, h.2.symm⟩
        | some ab =>
          simp only [Option.elim_some] at h
          split at h
          · rename_i hin
            right
            rw [inCell_iff] at hin
            simp only [Prod.mk.injEq] at h
            unfold cellLoc at hl
            cases hk : g.cell (jc - 1) (ic - 1) with
            | none => rw [hk] at hl; simp at hl
            | some k =>
              rw [hk] at hl
              simp only [Option.elim_some] at hl
              rw [cell_some g _ _ _ (by omega) (by omega)] at hk
              exact ⟨ic - 1, jc - 1, ab.1, ab.2, k, hk, h.1.symm, h.2.symm, hin.1, hin.2.1, hin.2.2.1, hin.2.2.2,
                fun hcr => C13_location_inverts_bilinear k x y ab.1 ab.2 hcr hl⟩
          · simp only [Prod.mk.injEq] at h; left; exact ⟨h.1.symm, h.2.symm⟩
    · simp only [Except.ok.injEq, Prod.mk.injEq] at h; left; exact ⟨h.1.symm, h.2.symm⟩

/-- **C14.** The two answers cannot be confused: a location has both coordinates greater than -1/2. -/
theorem C14_outside_recognised (g : Grid2) (x y p q : ℝ) (h : grid2relloc g (some x) (some y) = .ok (p, q)) :
    (p = -1 ↔ q = -1) ∧ (p ≠ -1 → -(1 / 2) < p ∧ -(1 / 2) < q) := by
  have he : epsF < 1 / 2 := by unfold epsF; norm_num
  rcases C14_relloc_sound g x y p q h with ⟨h1, h2⟩ | ⟨i, j, a, b, k, -, h1, h2, h3, -, h4, -, -⟩
  · subst h1; subst h2; simp
  · have hi : (0 : ℝ) ≤ i := Nat.cast_nonneg _
    have hj : (0 : ℝ) ≤ j := Nat.cast_nonneg _
    refine ⟨⟨fun _ => ?_, fun _ => ?_⟩, fun _ => ⟨by linarith, by linarith⟩⟩ <;> linarith

/-- **C14.** When the location is inside the cell, its integer parts are the indices of a cell of the grid. -/
theorem C14_integer_parts (g : Grid2) (x y p q : ℝ) (h : grid2relloc g (some x) (some y) = .ok (p, q)) (hp : p ≠ -1) :
    (0 ≤ Int.floor p ∧ Int.floor p + 1 < g.nx ∨ p ∈ Set.Ico (-epsF) 0) ∧
    (0 ≤ Int.floor q ∧ Int.floor q + 1 < g.ny ∨ q ∈ Set.Ico (-epsF) 0) := by
  have he : epsF < 1 / 2 := by unfold epsF; norm_num
  cases hc : closest2d g (some x) (some y) with
  | error e => unfold grid2relloc at h; rw [hc] at h; simp [Except.bind] at h
  | ok c =>
    obtain ⟨ic, jc⟩ := c
    rw [grid2relloc_window g _ _ ic jc hc] at h
    split at h
    · rename_i hw
      cases hl : cellLoc g (some x) (some y) (jc - 1) (ic - 1) with
      | error e => rw [hl] at h; simp [Except.map] at h
      | ok r =>
        rw [hl] at h
        simp only [Except.map, Except.ok.injEq] at h
        cases r with
        | none => simp only [Option.elim_none, Prod.mk.injEq] at h; exact absurd h.1.symm hp
        | some ab =>
          simp only [Option.elim_some] at h
          split at h
          · rename_i hin
            rw [inCell_iff] at hin
            simp only [Prod.mk.injEq] at h
            have gen : ∀ (c n : Nat) (s t : ℝ), 1 ≤ c → c + 2 ≤ n → ((c - 1 : Nat) : ℝ) + s = t → -epsF ≤ s → s ≤ 1 + epsF →
                (0 ≤ Int.floor t ∧ Int.floor t + 1 < (n : Int) ∨ t ∈ Set.Ico (-epsF) 0) := by
              intro c n s t h1 h2 h3 h4 h5
              by_cases ht : t < 0
              · right
                refine ⟨?_, ht⟩
                have : (0 : ℝ) ≤ ((c - 1 : Nat) : ℝ) := Nat.cast_nonneg _
                linarith
              · left
                refine ⟨Int.floor_nonneg.mpr (not_lt.mp ht), ?_⟩
                have : Int.floor t < (c : Int) + 1 := by
                  rw [Int.floor_lt]
                  push_cast
                  have hcc : ((c - 1 : Nat) : ℝ) = (c : ℝ) - 1 := by rw [Nat.cast_sub h1]; simp
                  rw [hcc] at h3; linarith
                omega
            exact ⟨gen ic g.nx _ _ hw.1.1 hw.1.2 h.1 hin.1 hin.2.1, gen jc g.ny _ _ hw.2.1 hw.2.2 h.2 hin.2.2.1 hin.2.2.2⟩
          · simp only [Prod.mk.injEq] at h; exact absurd h.1.symm hp
    · simp only [Except.ok.injEq, Prod.mk.injEq] at h; exact absurd h.1.symm hp

/-- **C72, part.** A target of a convex cell is located, exactly, when the closest point of the grid is the
upper right corner of this cell and the cell is neither in the last row nor in the last column
(and no division by zero is raised). What is missing: all the other cells, see the violations. -/
theorem C72_located_partial (g : Grid2) (i j : Nat) (k : Cell) (hk : HasCell g j i k) (hcv : k.Convex)
    (hcr : k.edgesCross = 0 ∨ 2 * epsF ≤ |k.edgesCross|) (a b : ℝ) (hab : InUnit a b)
    (hcl : closest2d g (some (k.at a b).1) (some (k.at a b).2) = .ok (i + 1, j + 1)) (hi : i + 2 < g.nx) (hj : j + 2 < g.ny)
    (hs : ∀ p, 2 * epsF < |(k.side p).1| ∨ (k.side p).2 ≠ 0) :
    grid2relloc g (some (k.at a b).1) (some (k.at a b).2) = .ok (i + a, j + b) := by
  have hcell : g.cell j i = some k := (cell_some g j i k hk.1 hk.2.1).mpr hk
  have hin : inCell (a, b) = true := by
    have := epsF_pos
    rw [inCell_iff]
    obtain ⟨h1, h2, h3, h4⟩ := hab
    exact ⟨by linarith, by linarith, by linarith, by linarith⟩
  rw [grid2relloc_window g _ _ _ _ hcl, if_pos ⟨⟨by omega, by omega⟩, by omega, by omega⟩]
  simp only [Nat.add_sub_cancel, cellLoc, hcell, Option.elim_some]
  rw [C13_convex_exact_total k hcv hcr hs a b hab]
  simp [Except.map, hin]

/-- **C72, violated.** In a grid of at most two rows or two columns no target is ever located. -/
theorem C72_two_rows_violated (g : Grid2) (hg : g.nx ≤ 2 ∨ g.ny ≤ 2) (xo yo : Option ℝ) (r : ℝ × ℝ)
    (h : grid2relloc g xo yo = .ok r) : r = (-1, -1) := by
  cases hc : closest2d g xo yo with
  | error e => unfold grid2relloc at h; rw [hc] at h; simp [Except.bind] at h
  | ok c =>
    obtain ⟨ic, jc⟩ := c
    rw [grid2relloc_window g _ _ ic jc hc, if_neg (by omega)] at h
    simpa using h.symm

/-- **C72, violated.** The cells of the last row and of the last column are never returned: a target is
only located at `p ≤ nx - 2 + eps` and `q ≤ ny - 2 + eps`. -/
theorem C72_last_cells_violated (g : Grid2) (x y p q : ℝ) (h : grid2relloc g (some x) (some y) = .ok (p, q)) (hp : p ≠ -1) :
    p ≤ g.nx - 2 + epsF ∧ q ≤ g.ny - 2 + epsF := by
  cases hc : closest2d g (some x) (some y) with
  | error e => unfold grid2relloc at h; rw [hc] at h; simp [Except.bind] at h
  | ok c =>
    obtain ⟨ic, jc⟩ := c
    rw [grid2relloc_window g _ _ ic jc hc] at h
    split at h
    · rename_i hw
      cases hl : cellLoc g (some x) (some y) (jc - 1) (ic - 1) with
      | error e => rw [hl] at h; simp [Except.map] at h
      | ok r =>
        rw [hl] at h
        simp only [Except.map, Except.ok.injEq] at h
        cases r with
        | none => simp only [Option.elim_none, Prod.mk.injEq] at h; exact absurd h.1.symm hp
        | some ab =>
          simp only [Option.elim_some] at h
          split at h
          · rename_i hin
            rw [inCell_iff] at hin
            simp only [Prod.mk.injEq] at h
            have e1 : ((ic - 1 : Nat) : ℝ) = (ic : ℝ) - 1 := by rw [Nat.cast_sub hw.1.1]; simp
            have e2 : ((jc - 1 : Nat) : ℝ) = (jc : ℝ) - 1 := by rw [Nat.cast_sub hw.2.1]; simp
            have f1 : (ic : ℝ) + 2 ≤ g.nx := by exact_mod_cast hw.1.2
            have f2 : (jc : ℝ) + 2 ≤ g.ny := by exact_mod_cast hw.2.2
            rw [e1, e2] at h
            exact ⟨by linarith [h.1], by linarith [h.2]⟩
          · simp only [Prod.mk.injEq] at h; exact absurd h.1.symm hp
    · simp only [Except.ok.injEq, Prod.mk.injEq] at h; exact absurd h.1.symm hp

/-- a regular grid: longitudes `0, 1, ...`, latitudes `0, 1, ...` -/
noncomputable def regularGrid (ny nx : Nat) : Grid2 := ⟨ny, nx, fun _ i => some i, fun j _ => some j⟩

theorem regular_closest (ny nx i j : Nat) (hi : i < nx) (hj : j < ny) (hx : nx ≤ 300) (hy : ny ≤ 80) :
    closest2d (regularGrid ny nx) (some i) (some j) = .ok (i, j) := by
  apply closest_exact
  · exact hi
  · exact hj
  · rfl
  · rfl
  · intro i' j' _ _ h1 h2
    simp only [regularGrid, Option.some.injEq, Nat.cast_inj] at h1 h2
    exact ⟨h1, h2⟩
  · intro j' i' x y hj' hi' h1 h2
    simp only [regularGrid, Option.some.injEq] at h1 h2
    subst h1; subst h2
    have b1 : (j' : ℝ) < 80 := by exact_mod_cast (lt_of_lt_of_le hj' hy)
    have b2 : (i' : ℝ) < 300 := by exact_mod_cast (lt_of_lt_of_le hi' hx)
    have b3 : (i : ℝ) < 300 := by exact_mod_cast (lt_of_lt_of_le hi hx)
    have c1 : (0 : ℝ) ≤ j' := Nat.cast_nonneg _
    have c2 : (0 : ℝ) ≤ i' := Nat.cast_nonneg _
    have c3 : (0 : ℝ) ≤ i := Nat.cast_nonneg _
    refine ⟨by linarith, by linarith, ?_⟩
    rw [abs_lt]; constructor <;> linarith

/-- **C72, violated.** A target whose closest grid point is on the border of the grid is reported as outside, for every grid, although it can be in a cell. -/
theorem C72_border_violated (g : Grid2) (xo yo : Option ℝ) (i j : Nat) (h : closest2d g xo yo = .ok (i, j))
    (hb : i = 0 ∨ j = 0 ∨ g.nx ≤ i + 1 ∨ g.ny ≤ j + 1) : grid2relloc g xo yo = .ok (-1, -1) := by
  rw [grid2relloc_window _ _ _ _ _ h, if_neg]
  omega

/-- **C72, violated.** On a regular grid (up to 300 by 80 degrees), the points of the first row, of the first
column, of the last row and of the last column, which are corners of cells, are reported
as outside. -/
theorem C72_border_points_violated (ny nx : Nat) (hx : nx ≤ 300) (hy : ny ≤ 80) (i j : Nat) (hi : i < nx) (hj : j < ny)
    (hb : i = 0 ∨ j = 0 ∨ i + 1 = nx ∨ j + 1 = ny) : grid2relloc (regularGrid ny nx) (some i) (some j) = .ok (-1, -1) := by
  refine C72_border_violated _ _ _ _ _ (regular_closest ny nx i j hi hj hx hy) ?_
  show i = 0 ∨ j = 0 ∨ nx ≤ i + 1 ∨ ny ≤ j + 1
  omega

theorem regular_cell (ny nx i j : Nat) (hi : i + 1 < nx) (hj : j + 1 < ny) :
    HasCell (regularGrid ny nx) j i ⟨i, i, i + 1, i + 1, j, j + 1, j + 1, j⟩ := by
  refine ⟨hj, hi, ?_⟩
  simp [regularGrid]

/-- **C72.** On the same grids all the inner points are located at themselves: the hypotheses of
`C72_located_partial` are met. -/
theorem C72_inner_points (ny nx : Nat) (hx : nx ≤ 300) (hy : ny ≤ 80) (i j : Nat) (hi : i + 2 < nx) (hj : j + 2 < ny) :
    grid2relloc (regularGrid ny nx) (some ((i : ℝ) + 1)) (some ((j : ℝ) + 1)) = .ok (i + 1, j + 1) := by
  have h := C72_located_partial (regularGrid ny nx) i j ⟨i, i, i + 1, i + 1, j, j + 1, j + 1, j⟩
    (regular_cell ny nx i j (by omega) (by omega)) (Or.inl (by norm_num [cross])) (Or.inl (by simp [Cell.edgesCross, cross])) 1 1
    ⟨by norm_num, le_refl _, by norm_num, le_refl _⟩
  have e : (Cell.at ⟨i, i, i + 1, i + 1, j, j + 1, j + 1, j⟩ 1 1) = ((i : ℝ) + 1, (j : ℝ) + 1) := by simp [Cell.at]
  rw [e] at h
  apply h
  · have := regular_closest ny nx (i + 1) (j + 1) (by omega) (by omega) hx hy
    push_cast at this
    exact this
  · exact hi
  · exact hj
  · intro p; right; simp [Cell.side]

-- a grid of 10 by 12 points
example : grid2relloc (regularGrid 10 12) (some ((3 : Nat) + 1)) (some ((4 : Nat) + 1)) = .ok ((3 : Nat) + 1, (4 : Nat) + 1) :=
  C72_inner_points 10 12 (by decide) (by decide) 3 4 (by decide) (by decide)

/-- **C14.** A target that is not in a cell of the grid, even enlarged by eps, is reported as outside (or an error is raised), when no cell has nearly but not exactly parallel edges. -/
theorem C14_no_cell (g : Grid2) (x y : ℝ) (hpar : ∀ i j k, HasCell g j i k → k.edgesCross = 0 ∨ 2 * epsF ≤ |k.edgesCross|)
    (hno : ∀ i j k a b, HasCell g j i k → -epsF ≤ a → a ≤ 1 + epsF → -epsF ≤ b → b ≤ 1 + epsF → k.at a b ≠ (x, y)) (r : ℝ × ℝ)
    (h : grid2relloc g (some x) (some y) = .ok r) : r = (-1, -1) := by
  obtain ⟨p, q⟩ := r
  rcases C14_relloc_sound g x y p q h with ⟨h1, h2⟩ | ⟨i, j, a, b, k, hk, -, -, ha, ha', hb, hb', he⟩
  · rw [h1, h2]
  · exact absurd (he (hpar i j k hk)) (hno i j k a b hk ha ha' hb hb')

-- the hypotheses are met by the regular grids and a target far from them
example (ny nx : Nat) : (∀ i j k, HasCell (regularGrid ny nx) j i k → k.edgesCross = 0 ∨ 2 * epsF ≤ |k.edgesCross|) ∧
    (∀ i j k a b, HasCell (regularGrid ny nx) j i k → -epsF ≤ a → a ≤ 1 + epsF → -epsF ≤ b → b ≤ 1 + epsF → k.at a b ≠ ((nx : ℝ) + 1, 0)) := by
  have key : ∀ i j k, HasCell (regularGrid ny nx) j i k → i + 1 < nx ∧ k = ⟨i, i, i + 1, i + 1, j, j + 1, j + 1, j⟩ := by
    rintro i j k ⟨hj, hi, h⟩
    simp only [regularGrid] at h
    obtain ⟨h1, h2, h3, h4, h5, h6, h7, h8⟩ := h
    refine ⟨hi, ?_⟩
    cases k
    simp only [Option.some.injEq, Nat.cast_add, Nat.cast_one] at h1 h2 h3 h4 h5 h6 h7 h8
    subst h1 h2 h3 h4 h5 h6 h7 h8
    rfl
  refine ⟨?_, ?_⟩
  · intro i j k hk
    obtain ⟨-, rfl⟩ := key i j k hk
    left
    simp [Cell.edgesCross, cross]
  · intro i j k a b hk _ ha _ _ he
    obtain ⟨hi, rfl⟩ := key i j k hk
    have hc : ((i + 1 : Nat) : ℝ) < (nx : ℝ) := by exact_mod_cast hi
    have he1 := congrArg Prod.fst he
    simp only [Cell.at] at he1
    have : epsF < 1 := by unfold epsF; norm_num
    push_cast at hc
    have e2 : (i : ℝ) + a = nx + 1 := by linear_combination he1
    linarith

/-- **C14.** `grid2rellocs` locates each point independently of the others. -/
theorem C14_rellocs_pointwise (g : Grid2) (pts : List (Option ℝ × Option ℝ)) (rs : List (ℝ × ℝ)) (h : grid2rellocs g pts = .ok rs) :
    rs.length = pts.length ∧ ∀ (n : Nat) (hn : n < pts.length) (hn' : n < rs.length), grid2relloc g pts[n].1 pts[n].2 = .ok rs[n] := by
  unfold grid2rellocs at h
  induction pts generalizing rs with
  | nil =>
    have : rs = [] := by simpa [pure, Except.pure, eq_comm] using h
    subst this; simp
  | cons pt pts ih =>
    rw [List.mapM_cons] at h
    simp only [bind, Except.bind, pure, Except.pure] at h
    split at h
    · simp at h
    · rename_i v hv
      split at h
      · simp at h
      · rename_i vs hvs
        simp only [Except.ok.injEq] at h
        subst h
        obtain ⟨h1, h2⟩ := ih vs hvs
        refine ⟨by simp [h1], ?_⟩
        intro n hn hn'
        cases n with
        | zero => exact hv
        | succ n =>
          simp only [List.getElem_cons_succ]
          exact h2 n (by simpa using hn) (by simpa using hn')

end Xoa
