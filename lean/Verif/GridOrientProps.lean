import Verif.GridLocProps

/-!
# C193: the location of a target does not depend on the way the grid is stored
-/

namespace Xoa

open Real

/-- the grid with its two dimensions exchanged: what xarray's `transpose` or numpy's `.T` gives -/
def Grid2.transposed (g : Grid2) : Grid2 := ⟨g.nx, g.ny, fun j i => g.lon i j, fun j i => g.lat i j⟩

/-- the grid with its columns in the opposite order: `lon[:, ::-1]`, `lat[:, ::-1]` -/
def Grid2.flippedX (g : Grid2) : Grid2 := ⟨g.ny, g.nx, fun j i => g.lon j (g.nx - 1 - i), fun j i => g.lat j (g.nx - 1 - i)⟩

/-- the grid with its rows in the opposite order: `lon[::-1]`, `lat[::-1]` -/
def Grid2.flippedY (g : Grid2) : Grid2 := ⟨g.ny, g.nx, fun j i => g.lon (g.ny - 1 - j) i, fun j i => g.lat (g.ny - 1 - j) i⟩

/-- the point `(i, j)` is closer to the target than all the other points with known coordinates, and is not its antipode -/
def OnlyClosest (g : Grid2) (x y : ℝ) (i j : Nat) : Prop :=
  ∃ r, PointDist g x y i j r ∧ r < π ∧ ∀ i' j' r', PointDist g x y i' j' r' → (i', j') ≠ (i, j) → r < r'

theorem closest_only (g : Grid2) (x y : ℝ) (i j : Nat) (h : OnlyClosest g x y i j) : closest2d g (some x) (some y) = .ok (i, j) := by
  obtain ⟨r, hp, hlt, hmin⟩ := h
  obtain ⟨⟨i1, j1⟩, hc⟩ := (C70_closest_defined_iff_partial g x y).mpr ⟨i, j, r, hp, hlt⟩
  rw [hc]
  by_cases he : (i1, j1) = (i, j)
  · rw [he]
  · obtain ⟨r1, hp1, hm1⟩ := C12_closest_minimal g x y i1 j1 hc
    have := hmin i1 j1 r1 hp1 he
    have := hm1 i j r hp
    linarith

/-- **C193** (closest point): let the points of a second grid be points of the first one, stored at other places (`s`). When the target has one closest point in the first grid, and the second grid contains
it, then `closest2d` finds the same point in the second one. -/
theorem C193_closest (g g' : Grid2) (s : Nat → Nat → Nat × Nat) (x y : ℝ) (i j i' j' : Nat)
    (hs : ∀ a b, a < g'.nx → b < g'.ny → (s a b).1 < g.nx ∧ (s a b).2 < g.ny ∧ g'.lon b a = g.lon (s a b).2 (s a b).1 ∧ g'.lat b a = g.lat (s a b).2 (s a b).1)
    (hinj : ∀ a b a' b', a < g'.nx → b < g'.ny → a' < g'.nx → b' < g'.ny → s a b = s a' b' → (a, b) = (a', b'))
    (hc : OnlyClosest g x y i j) (ha : i' < g'.nx) (hb : j' < g'.ny) (hat : s i' j' = (i, j)) :
    closest2d g (some x) (some y) = .ok (i, j) ∧ closest2d g' (some x) (some y) = .ok (i', j') ∧ OnlyClosest g' x y i' j' := by
  have hoc : OnlyClosest g' x y i' j' := by
    obtain ⟨r, hp, hlt, hmin⟩ := hc
    obtain ⟨-, -, u, v, hu, hv, hr⟩ := hp
    obtain ⟨-, -, e1, e2⟩ := hs i' j' ha hb
    refine ⟨r, ⟨hb, ha, u, v, ?_, ?_, hr⟩, hlt, ?_⟩
    · rw [e1, hat]; exact hu
    · rw [e2, hat]; exact hv
    · rintro a b r' ⟨hb', ha', u', v', hu', hv', hr'⟩ hne
      obtain ⟨f1, f2, e3, e4⟩ := hs a b ha' hb'
      refine hmin (s a b).1 (s a b).2 r' ⟨f2, f1, u', v', by rw [← e3]; exact hu', by rw [← e4]; exact hv', hr'⟩ ?_
      intro h
      exact hne (hinj a b i' j' ha' hb' ha hb (by rw [hat]; exact h))
  exact ⟨closest_only g x y i j hc, closest_only g' x y i' j' hoc, hoc⟩

/-- **C193** (closest point, transposed grid): the two indices are exchanged. -/
theorem C193_closest_transposed (g : Grid2) (x y : ℝ) (i j : Nat) (hc : OnlyClosest g x y i j) :
    closest2d g (some x) (some y) = .ok (i, j) ∧ closest2d g.transposed (some x) (some y) = .ok (j, i) := by
  obtain ⟨r, ⟨hj, hi, -⟩, -⟩ := id hc
  have h := C193_closest g g.transposed (fun a b => (b, a)) x y i j j i (fun a b ha hb => ⟨hb, ha, rfl, rfl⟩)
    (fun a b a' b' _ _ _ _ h => by simp only [Prod.mk.injEq] at h ⊢; exact ⟨h.2, h.1⟩) hc hj hi rfl
  exact ⟨h.1, h.2.1⟩

/-- **C193** (closest point, columns or rows in the opposite order): the index counts from the other end. -/
theorem C193_closest_flipped (g : Grid2) (x y : ℝ) (i j : Nat) (hc : OnlyClosest g x y i j) :
    closest2d g.flippedX (some x) (some y) = .ok (g.nx - 1 - i, j) ∧ closest2d g.flippedY (some x) (some y) = .ok (i, g.ny - 1 - j) := by
  obtain ⟨r, ⟨hj, hi, -⟩, -⟩ := id hc
  constructor
  · have h := C193_closest g g.flippedX (fun a b => (g.nx - 1 - a, b)) x y i j (g.nx - 1 - i) j
      (fun a b ha hb => ⟨by have : a < g.nx := ha; show g.nx - 1 - a < g.nx; omega, hb, rfl, rfl⟩)
      (fun a b a' b' ha _ ha' _ h => by
        have : a < g.nx := ha
        have : a' < g.nx := ha'
        simp only [Prod.mk.injEq] at h ⊢; omega) hc (by show g.nx - 1 - i < g.nx; omega) hj (Prod.ext (by show g.nx - 1 - (g.nx - 1 - i) = i; omega) rfl)
    exact h.2.1
  · have h := C193_closest g g.flippedY (fun a b => (a, g.ny - 1 - b)) x y i j i (g.ny - 1 - j)
      (fun a b ha hb => ⟨ha, by have : b < g.ny := hb; show g.ny - 1 - b < g.ny; omega, rfl, rfl⟩)
      (fun a b a' b' _ hb _ hb' h => by
        have : b < g.ny := hb
        have : b' < g.ny := hb'
        simp only [Prod.mk.injEq] at h ⊢; omega) hc hi (by show g.ny - 1 - j < g.ny; omega) (Prod.ext rfl (by show g.ny - 1 - (g.ny - 1 - j) = j; omega))
    exact h.2.1

/-- the cell with its two dimensions exchanged -/
def Cell.transposed (k : Cell) : Cell := ⟨k.x1, k.x4, k.x3, k.x2, k.y1, k.y4, k.y3, k.y2⟩

/-- the cell whose columns are in the opposite order -/
def Cell.flippedX (k : Cell) : Cell := ⟨k.x4, k.x3, k.x2, k.x1, k.y4, k.y3, k.y2, k.y1⟩

/-- the cell whose rows are in the opposite order -/
def Cell.flippedY (k : Cell) : Cell := ⟨k.x2, k.x1, k.x4, k.x3, k.y2, k.y1, k.y4, k.y3⟩

theorem Cell.at_transposed (k : Cell) (p q : ℝ) : k.transposed.at q p = k.at p q := by
  simp only [Cell.at, Cell.transposed, Prod.mk.injEq]; constructor <;> ring

theorem Cell.at_flippedX (k : Cell) (p q : ℝ) : k.flippedX.at (1 - p) q = k.at p q := by
  simp only [Cell.at, Cell.flippedX, Prod.mk.injEq]; constructor <;> ring

theorem Cell.at_flippedY (k : Cell) (p q : ℝ) : k.flippedY.at p (1 - q) = k.at p q := by
  simp only [Cell.at, Cell.flippedY, Prod.mk.injEq]; constructor <;> ring

theorem Cell.convex_transposed (k : Cell) (h : k.Convex) : k.transposed.Convex := by
  unfold Cell.Convex at *
  simp only [Cell.transposed, cross] at *
  rcases h with ⟨h1, h2, h3, h4⟩ | ⟨h1, h2, h3, h4⟩
  · right; refine ⟨?_, ?_, ?_, ?_⟩ <;> linarith
  · left; refine ⟨?_, ?_, ?_, ?_⟩ <;> linarith

theorem Cell.convex_flippedX (k : Cell) (h : k.Convex) : k.flippedX.Convex := by
  unfold Cell.Convex at *
  simp only [Cell.flippedX, cross] at *
  rcases h with ⟨h1, h2, h3, h4⟩ | ⟨h1, h2, h3, h4⟩
  · right; refine ⟨?_, ?_, ?_, ?_⟩ <;> linarith
  · left; refine ⟨?_, ?_, ?_, ?_⟩ <;> linarith

theorem Cell.convex_flippedY (k : Cell) (h : k.Convex) : k.flippedY.Convex := by
  unfold Cell.Convex at *
  simp only [Cell.flippedY, cross] at *
  rcases h with ⟨h1, h2, h3, h4⟩ | ⟨h1, h2, h3, h4⟩
  · right; refine ⟨?_, ?_, ?_, ?_⟩ <;> linarith
  · left; refine ⟨?_, ?_, ?_, ?_⟩ <;> linarith

/-- the edges of the cell are exactly parallel, or not nearly so -/
def Cell.Plain (k : Cell) : Prop := k.edgesCross = 0 ∨ 2 * epsF ≤ |k.edgesCross|

/-- **C193** (location in a cell): in a strictly convex cell, a target of the cell has the location `(p, q)` in the cell, `(q, p)` in the transposed cell, `(1 - p, q)` when the columns are in the opposite order and
`(p, 1 - q)` when the rows are. (Put aside: edges nearly but not exactly parallel, see C71, and sides that vanish up to `2 eps`.) -/
theorem C193_cell (k : Cell) (hk : k.Convex) (hc : k.Plain ∧ k.transposed.Plain ∧ k.flippedX.Plain ∧ k.flippedY.Plain)
    (hs : ∀ p, (2 * epsF < |(k.side p).1| ∨ (k.side p).2 ≠ 0) ∧ (2 * epsF < |(k.transposed.side p).1| ∨ (k.transposed.side p).2 ≠ 0)) (p q : ℝ) (hpq : InUnit p q) :
    cell2relloc k (k.at p q).1 (k.at p q).2 = .ok (some (p, q)) ∧
    cell2relloc k.transposed (k.at p q).1 (k.at p q).2 = .ok (some (q, p)) ∧
    cell2relloc k.flippedX (k.at p q).1 (k.at p q).2 = .ok (some (1 - p, q)) ∧
    cell2relloc k.flippedY (k.at p q).1 (k.at p q).2 = .ok (some (p, 1 - q)) := by
  obtain ⟨h1, h2, h3, h4⟩ := hpq
  obtain ⟨c1, c2, c3, c4⟩ := hc
  refine ⟨C13_convex_exact_total k hk c1 (fun t => (hs t).1) p q ⟨h1, h2, h3, h4⟩, ?_, ?_, ?_⟩
  · have h := C13_convex_exact_total k.transposed (k.convex_transposed hk) c2 (fun t => (hs t).2) q p ⟨h3, h4, h1, h2⟩
    rwa [Cell.at_transposed] at h
  · have h := C13_convex_exact_total k.flippedX (k.convex_flippedX hk) c3 (fun t => by
      have e1 : (k.flippedX.side t).1 = (k.side (1 - t)).1 := by simp only [Cell.side, Cell.flippedX]; ring
      have e2 : (k.flippedX.side t).2 = (k.side (1 - t)).2 := by simp only [Cell.side, Cell.flippedX]; ring
      rw [e1, e2]; exact (hs (1 - t)).1) (1 - p) q ⟨by linarith, by linarith, h3, h4⟩
    rwa [Cell.at_flippedX] at h
  · have h := C13_convex_exact_total k.flippedY (k.convex_flippedY hk) c4 (fun t => by
      have e1 : (k.flippedY.side t).1 = -(k.side t).1 := by simp only [Cell.side, Cell.flippedY]; ring
      have e2 : (k.flippedY.side t).2 = -(k.side t).2 := by simp only [Cell.side, Cell.flippedY]; ring
      rw [e1, e2, abs_neg, neg_ne_zero]; exact (hs t).1) p (1 - q) ⟨h1, h2, by linarith, by linarith⟩
    rwa [Cell.at_flippedY] at h

theorem transposed_cell (g : Grid2) (j i : Nat) (k : Cell) (h : HasCell g j i k) : HasCell g.transposed i j k.transposed := by
  obtain ⟨h1, h2, a1, a2, a3, a4, b1, b2, b3, b4⟩ := h
  exact ⟨h2, h1, a1, a4, a3, a2, b1, b4, b3, b2⟩

theorem locMap_inv {α β : Type} {x : Except LocErr α} {f : α → β} {b : β} (h : x.map f = .ok b) : ∃ a, x = .ok a ∧ f a = b := by
  cases x with
  | error e => cases h
  | ok a => exact ⟨a, rfl, by injection h⟩

/-- the target is in the cell, or is not in it even enlarged by eps -/
def Cell.Sharp (k : Cell) (x y : ℝ) : Prop :=
  (∃ a b, InUnit a b ∧ k.at a b = (x, y)) ∨ ∀ a b, -epsF ≤ a → a ≤ 1 + epsF → -epsF ≤ b → b ≤ 1 + epsF → k.at a b ≠ (x, y)

theorem cell_sharp (k : Cell) (x y : ℝ) (hk : k.Convex) (hc : k.Plain) (ab : ℝ × ℝ) (h : cell2relloc k x y = .ok (some ab)) :
    (∀ a b, InUnit a b → k.at a b = (x, y) → ab = (a, b) ∧ inCell ab = true) ∧
    ((∀ a b, -epsF ≤ a → a ≤ 1 + epsF → -epsF ≤ b → b ≤ 1 + epsF → k.at a b ≠ (x, y)) → inCell ab = false) := by
  constructor
  · intro a b hab he
    have h1 := C13_convex_exact k hk hc a b hab
    rw [he, h] at h1
    rcases h1 with h1 | h1
    · have e : ab = (a, b) := by simpa using h1
      refine ⟨e, ?_⟩
      rw [inCell_iff, e]
      have := epsF_pos
      obtain ⟨u1, u2, u3, u4⟩ := hab
      exact ⟨by linarith, by linarith, by linarith, by linarith⟩
    · simp at h1
  · intro hno
    by_contra hi
    rw [Bool.not_eq_false, inCell_iff] at hi
    exact hno ab.1 ab.2 hi.1 hi.2.1 hi.2.2.1 hi.2.2.2 (C13_location_inverts_bilinear k x y ab.1 ab.2 hc h)

/-- in a strictly convex cell, a target of the cell always has a location -/
theorem cell_not_nan (k : Cell) (x y a b : ℝ) (hk : k.Convex) (hc : k.Plain) (hab : InUnit a b) (he : k.at a b = (x, y)) : cell2relloc k x y ≠ .ok none := by
  intro h
  have h1 := C13_convex_exact k hk hc a b hab
  rw [he, h] at h1
  rcases h1 with h1 | h1 <;> simp at h1

/-- **C193** (location in a grid, transposed grid): when the target has one closest point, the locations in the grid and in the transposed grid, if no error is raised, are the same ones with
their two indices exchanged: both are `(-1, -1)`, or `(p, q)` and `(q, p)`. (The cell that the search examines, the one that ends at the closest point, is supposed to be strictly convex, with edges exactly
parallel or not nearly so, see C71, and the target not to be out of it by less than eps.) -/
theorem C193_relloc_transposed (g : Grid2) (x y : ℝ) (ic jc : Nat) (hc : OnlyClosest g x y ic jc)
    (hk : ∀ k, HasCell g (jc - 1) (ic - 1) k → k.Convex ∧ k.Plain ∧ k.transposed.Plain ∧ k.Sharp x y) (r r' : ℝ × ℝ)
    (h : grid2relloc g (some x) (some y) = .ok r) (h' : grid2relloc g.transposed (some x) (some y) = .ok r') : r' = r.swap := by
  obtain ⟨c1, c2⟩ := C193_closest_transposed g x y ic jc hc
  rw [grid2relloc_window g _ _ ic jc c1] at h
  rw [grid2relloc_window g.transposed _ _ jc ic c2] at h'
  have ex : g.transposed.nx = g.ny := rfl
  have ey : g.transposed.ny = g.nx := rfl
  rw [ex, ey] at h'
  by_cases hw : (1 ≤ ic ∧ ic + 2 ≤ g.nx) ∧ 1 ≤ jc ∧ jc + 2 ≤ g.ny
  · rw [if_pos hw] at h
    rw [if_pos ⟨hw.2, hw.1⟩] at h'
    unfold cellLoc at h h'
    cases hcell : g.cell (jc - 1) (ic - 1) with
    | none =>
      have hcell' : g.transposed.cell (ic - 1) (jc - 1) = none := by
        cases hq : g.transposed.cell (ic - 1) (jc - 1) with
        | none => rfl
        | some k' =>
          rw [cell_some _ _ _ _ (by rw [ey]; omega) (by rw [ex]; omega)] at hq
          have h2 : HasCell g (jc - 1) (ic - 1) k'.transposed := transposed_cell g.transposed _ _ k' hq
          rw [← cell_some _ _ _ _ (by omega) (by omega), hcell] at h2
          exact absurd h2 (by simp)
      rw [hcell] at h; rw [hcell'] at h'
      simp only [Option.elim_none, Except.map, Except.ok.injEq] at h h'
      rw [← h, ← h']; rfl
    | some k =>
      have hk1 := (cell_some g _ _ k (by omega) (by omega)).mp hcell
      have hcell' := (cell_some g.transposed (ic - 1) (jc - 1) k.transposed (by rw [ey]; omega) (by rw [ex]; omega)).mpr (transposed_cell g _ _ k hk1)
      obtain ⟨hcv, hp, hp', hsh⟩ := hk k hk1
      rw [hcell] at h; rw [hcell'] at h'
      simp only [Option.elim_some] at h h'
      obtain ⟨o, ho, h⟩ := locMap_inv h
      obtain ⟨o', ho', h'⟩ := locMap_inv h'
      rcases hsh with ⟨a, b, hab, he⟩ | hno
      · have hab' : InUnit b a := ⟨hab.2.2.1, hab.2.2.2, hab.1, hab.2.1⟩
        have he' : k.transposed.at b a = (x, y) := by rw [Cell.at_transposed]; exact he
        cases o with
        | none => exact absurd ho (cell_not_nan k x y a b hcv hp hab he)
        | some ab =>
          cases o' with
          | none => exact absurd ho' (cell_not_nan k.transposed x y b a (k.convex_transposed hcv) hp' hab' he')
          | some ab' =>
            obtain ⟨e1, i1⟩ := (cell_sharp k x y hcv hp ab ho).1 a b hab he
            obtain ⟨e2, i2⟩ := (cell_sharp k.transposed x y (k.convex_transposed hcv) hp' ab' ho').1 b a hab' he'
            simp only [Option.elim_some] at h h'
            rw [if_pos i1, e1] at h
            rw [if_pos i2, e2] at h'
            rw [← h, ← h']; rfl
      · have hno' : ∀ a b, -epsF ≤ a → a ≤ 1 + epsF → -epsF ≤ b → b ≤ 1 + epsF → k.transposed.at a b ≠ (x, y) := by
          intro a b a1 a2 b1 b2; rw [Cell.at_transposed]; exact hno b a b1 b2 a1 a2
        have e1 : r = (-1, -1) := by
          cases o with
          | none => exact h.symm
          | some ab =>
            simp only [Option.elim_some] at h
            rw [(cell_sharp k x y hcv hp ab ho).2 hno] at h
            exact h.symm
        have e2 : r' = (-1, -1) := by
          cases o' with
          | none => exact h'.symm
          | some ab =>
            simp only [Option.elim_some] at h'
            rw [(cell_sharp k.transposed x y (k.convex_transposed hcv) hp' ab ho').2 hno'] at h'
            exact h'.symm
        rw [e1, e2]; rfl
  · rw [if_neg hw] at h
    rw [if_neg (fun h => hw ⟨h.2, h.1⟩)] at h'
    have e1 := Except.ok.inj h
    have e2 := Except.ok.inj h'
    rw [← e1, ← e2]; rfl

/-- a grid of three parallels and four meridians around the equator -/
noncomputable def equatorGrid : Grid2 := ⟨3, 4, fun _ i => some i, fun j _ => some ((j : ℝ) - 1)⟩

theorem from_equator (d l t : ℝ) : 1 - 2 * havArg d 0 l t = cos (t * π / 180) * cos ((d - l) * π / 180) := by
  unfold havArg deg2rad
  rw [sin_sq_eq_half_sub, sin_sq_eq_half_sub]
  simp only [mul_zero, cos_zero]
  rw [show 2 * (π / 180 * (d - l) * (1 / 2)) = (d - l) * π / 180 by ring, show 2 * (π / 180 * (0 - t) * (1 / 2)) = -(t * π / 180) by ring, cos_neg,
    show π / 180 * t = t * π / 180 by ring]
  ring

theorem equator_only : OnlyClosest equatorGrid (5 / 4) 0 1 1 := by
  have hp := pi_pos
  have hclose : 1 - 2 * havArg (5 / 4) 0 1 0 = cos (1 / 4 * π / 180) := by
    rw [from_equator]; norm_num
  have hr := havArg_range (5 / 4) 0 1 0
  refine ⟨greatCircle (5 / 4) 0 1 0, ⟨by decide, by decide, 1, 0, by simp [equatorGrid], by simp [equatorGrid], rfl⟩, ?_, ?_⟩
  · rw [greatCircle_arccos, hclose, arccos_cos (by positivity) (by linarith)]; linarith
  · rintro i j r ⟨hj, hi, l, t, hl, ht, rfl⟩ hne
    simp only [equatorGrid, Option.some.injEq] at hl ht hi hj
    rw [greatCircle_arccos, greatCircle_arccos, hclose]
    have hr' := havArg_range (5 / 4) 0 l t
    refine arccos_lt_arccos (by linarith [hr'.2]) ?_ (cos_le_one _)
    rw [from_equator]
    have hone : cos (1 * π / 180) < cos (1 / 4 * π / 180) := cos_lt_cos_of_nonneg_of_le_pi (by positivity) (by linarith) (by linarith)
    have hpos : 0 < cos (1 * π / 180) := cos_pos_of_mem_Ioo ⟨by linarith, by linarith⟩
    have hle := cos_le_one ((5 / 4 - l) * π / 180)
    have hfar : ∀ u : ℝ, 3 / 4 ≤ |u| → |u| ≤ 2 → cos (u * π / 180) < cos (1 / 4 * π / 180) := by
      intro u h1 h2
      have e : cos (u * π / 180) = cos (|u| * π / 180) := by
        rcases abs_cases u with ⟨h, -⟩ | ⟨h, -⟩ <;> rw [h]
        rw [show -u * π / 180 = -(u * π / 180) by ring, cos_neg]
      rw [e]
      refine cos_lt_cos_of_nonneg_of_le_pi (by positivity) ?_ ?_
      · rw [div_le_iff₀ (by norm_num)]; nlinarith
      · have : 1 / 4 * π < |u| * π := mul_lt_mul_of_pos_right (by linarith) hp
        linarith
    have hj3 : j = 0 ∨ j = 1 ∨ j = 2 := by omega
    have hi4 : i = 0 ∨ i = 1 ∨ i = 2 ∨ i = 3 := by omega
    rcases hj3 with rfl | rfl | rfl
    · have et : t = -1 := by rw [← ht]; norm_num
      rw [et, show (-1 : ℝ) * π / 180 = -(1 * π / 180) by ring, cos_neg]
      nlinarith
    · have et : t = 0 := by rw [← ht]; norm_num
      rw [et, zero_mul, zero_div, cos_zero, one_mul]
      have hi1 : i ≠ 1 := by rintro rfl; exact hne rfl
      rcases hi4 with rfl | rfl | rfl | rfl
      · rw [← hl]; apply hfar <;> norm_num
      · exact absurd rfl hi1
      · rw [← hl]; apply hfar
        · rw [abs_of_neg (by norm_num)]; norm_num
        · rw [abs_of_neg (by norm_num)]; norm_num
      · rw [← hl]; apply hfar
        · rw [abs_of_neg (by norm_num)]; norm_num
        · rw [abs_of_neg (by norm_num)]; norm_num
    · have et : t = 1 := by rw [← ht]; norm_num
      rw [et]
      nlinarith

/-- **C193 is violated** by the location in a grid whose columns are in the opposite order: a target in a cell is reported as outside in one order and found in the other one (at `3 - 5/4 = 7/4` along x). -/
theorem C193_relloc_flipped_violated :
    grid2relloc equatorGrid (some (5 / 4)) (some 0) = .ok (-1, -1) ∧ grid2relloc equatorGrid.flippedX (some (5 / 4)) (some 0) = .ok (7 / 4, 1) := by
  have hcl := closest_only _ _ _ _ _ equator_only
  have hcf := (C193_closest_flipped _ _ _ _ _ equator_only).1
  have heps : epsF < 1 / 8 := by unfold epsF; norm_num
  have heps0 := epsF_pos
  constructor
  · rw [grid2relloc_window _ _ _ _ _ hcl, if_pos (by decide)]
    have hc : equatorGrid.cell (1 - 1) (1 - 1) = some ⟨0, 0, 1, 1, -1, 0, 0, -1⟩ := by norm_num [Grid2.cell, equatorGrid]
    have hx := C13_parallelogram_exact ⟨0, 0, 1, 1, -1, 0, 0, -1⟩ (5 / 4) 1 (by norm_num) (by norm_num) (by norm_num [cross]) (Or.inr (by norm_num))
    have he : Cell.at ⟨0, 0, 1, 1, -1, 0, 0, -1⟩ (5 / 4) 1 = (5 / 4, 0) := by norm_num [Cell.at]
    rw [he] at hx
    have hin : inCell ((5 / 4 : ℝ), (1 : ℝ)) = false := by
      rw [← Bool.not_eq_true, inCell_iff]; intro h; linarith [h.2.1]
    simp only [cellLoc, hc, Option.elim_some, hx, Except.map, hin]
    rfl
  · rw [grid2relloc_window _ _ _ _ _ hcf, if_pos (by decide)]
    have hc : equatorGrid.flippedX.cell (1 - 1) (equatorGrid.nx - 1 - 1 - 1) = some ⟨2, 2, 1, 1, -1, 0, 0, -1⟩ := by norm_num [Grid2.cell, Grid2.flippedX, equatorGrid]
    have hx := C13_parallelogram_exact ⟨2, 2, 1, 1, -1, 0, 0, -1⟩ (3 / 4) 1 (by norm_num) (by norm_num) (by norm_num [cross]) (Or.inr (by norm_num))
    have he : Cell.at ⟨2, 2, 1, 1, -1, 0, 0, -1⟩ (3 / 4) 1 = (5 / 4, 0) := by norm_num [Cell.at]
    rw [he] at hx
    have hin : inCell ((3 / 4 : ℝ), (1 : ℝ)) = true := by
      rw [inCell_iff]; exact ⟨by linarith, by linarith, by linarith, by linarith⟩
    simp only [cellLoc, hc, Option.elim_some, hx, Except.map, hin, if_true]
    norm_num [equatorGrid]

-- a case of `C193_relloc_transposed`: the same target, reported as outside in the grid and in the transposed grid
example (r' : ℝ × ℝ) (h' : grid2relloc equatorGrid.transposed (some (5 / 4)) (some 0) = .ok r') : r' = (-1, -1) := by
  refine C193_relloc_transposed equatorGrid (5 / 4) 0 1 1 equator_only ?_ (-1, -1) r' C193_relloc_flipped_violated.1 h'
  intro k hk
  have hc : equatorGrid.cell (1 - 1) (1 - 1) = some ⟨0, 0, 1, 1, -1, 0, 0, -1⟩ := by norm_num [Grid2.cell, equatorGrid]
  rw [← cell_some _ _ _ _ (by decide) (by decide), hc] at hk
  obtain rfl := Option.some.inj hk
  refine ⟨Or.inl (by norm_num [cross]), Or.inl (by norm_num [Cell.edgesCross, cross]), Or.inl (by norm_num [Cell.edgesCross, cross, Cell.transposed]), Or.inr ?_⟩
  intro a b _ ha _ _ he
  have h1 := congrArg Prod.fst he
  simp only [Cell.at] at h1
  have heps : epsF < 1 / 8 := by unfold epsF; norm_num
  linarith

-- and one of the located targets: in the grid of which the columns are in the opposite order, the same target is found at (7/4, 1), and at (1, 7/4) in the transposed grid
example (r' : ℝ × ℝ) (h' : grid2relloc equatorGrid.flippedX.transposed (some (5 / 4)) (some 0) = .ok r') : r' = (1, 7 / 4) := by
  have hoc : OnlyClosest equatorGrid.flippedX (5 / 4) 0 2 1 :=
    (C193_closest equatorGrid equatorGrid.flippedX (fun a b => (3 - a, b)) (5 / 4) 0 1 1 2 1
      (fun a b ha hb => ⟨by show 3 - a < 4; omega, hb, rfl, rfl⟩)
      (fun a b a' b' ha _ ha' _ h => by
        have : a < 4 := ha
        have : a' < 4 := ha'
        simp only [Prod.mk.injEq] at h ⊢; omega) equator_only (by decide) (by decide) rfl).2.2
  refine C193_relloc_transposed equatorGrid.flippedX (5 / 4) 0 2 1 hoc ?_ (7 / 4, 1) r' C193_relloc_flipped_violated.2 h'
  intro k hk
  have hc : equatorGrid.flippedX.cell (1 - 1) (2 - 1) = some ⟨2, 2, 1, 1, -1, 0, 0, -1⟩ := by norm_num [Grid2.cell, Grid2.flippedX, equatorGrid]
  rw [← cell_some _ _ _ _ (by decide) (by decide), hc] at hk
  obtain rfl := Option.some.inj hk
  exact ⟨Or.inr (by norm_num [cross]), Or.inl (by norm_num [Cell.edgesCross, cross]), Or.inl (by norm_num [Cell.edgesCross, cross, Cell.transposed]),
    Or.inl ⟨3 / 4, 1, ⟨by norm_num, by norm_num, by norm_num, le_refl _⟩, by norm_num [Cell.at]⟩⟩

-- the hypotheses of `C193_cell`: a unit square
example : cell2relloc (Cell.transposed ⟨0, 0, 1, 1, 0, 1, 1, 0⟩) (1 / 4) (1 / 3) = .ok (some (1 / 3, 1 / 4)) := by
  have h := (C193_cell ⟨0, 0, 1, 1, 0, 1, 1, 0⟩ (Or.inl (by norm_num [cross]))
    ⟨Or.inl (by norm_num [Cell.edgesCross, cross]), Or.inl (by norm_num [Cell.edgesCross, cross, Cell.transposed]), Or.inl (by norm_num [Cell.edgesCross, cross, Cell.flippedX]),
      Or.inl (by norm_num [Cell.edgesCross, cross, Cell.flippedY])⟩
    (fun p => ⟨Or.inr (by norm_num [Cell.side]), Or.inl (by norm_num [Cell.side, Cell.transposed, epsF])⟩) (1 / 4) (1 / 3)
    ⟨by norm_num, by norm_num, by norm_num, by norm_num⟩).2.1
  norm_num [Cell.at] at h ⊢
  exact h

end Xoa
