import Verif.GridLocProps

/-! # The origin of the longitudes, whole turns and the hemisphere in the location routines (C185) -/

namespace Xoa

open Real

/-- the same grid with the longitude of each point changed by `f` and its latitude by `h` -/
def Grid2.moved (g : Grid2) (f : Nat → Nat → ℝ → ℝ) (h : ℝ → ℝ) : Grid2 :=
  ⟨g.ny, g.nx, fun j i => (g.lon j i).map (f j i), fun j i => (g.lat j i).map h⟩

theorem haversine_turns (lon0 lat0 lon1 lat1 c : ℝ) (m n : ℤ) :
    haversine (lon0 + c + 360 * m) lat0 (lon1 + c + 360 * n) lat1 = haversine lon0 lat0 lon1 lat1 := by
  rw [C11_haversine_periodic]
  unfold haversine havArg
  rw [add_sub_add_right_eq_sub]

theorem haversine_mirror (lon0 lat0 lon1 lat1 : ℝ) : haversine lon0 (-lat0) lon1 (-lat1) = haversine lon0 lat0 lon1 lat1 := by
  unfold haversine havArg
  have e1 : deg2rad * (-lat0 - -lat1) * (1 / 2) = -(deg2rad * (lat0 - lat1) * (1 / 2)) := by ring
  rw [e1, Real.sin_neg, neg_sq, mul_neg, mul_neg, Real.cos_neg, Real.cos_neg]

theorem closest2d_congr (g g' : Grid2) (xo yo xo' yo' : Option ℝ) (hy : g'.ny = g.ny) (hx : g'.nx = g.nx)
    (h : ∀ j i, haversineN xo' yo' (g'.lon j i) (g'.lat j i) = haversineN xo yo (g.lon j i) (g.lat j i)) : closest2d g' xo' yo' = closest2d g xo yo := by
  have hs : closestStep g' xo' yo' = closestStep g xo yo := by
    funext it s jt
    unfold closestStep
    rw [h]
  unfold closest2d
  rw [hs, hx, hy]

/-- **C185** (closest point): the same shift of all the longitudes, the one of the target included, and any number of whole turns added to the longitude of the target and to the
longitude of each point of the grid do not change the closest point. -/
theorem C185_closest_turns (g : Grid2) (xo yo : Option ℝ) (c : ℝ) (m : ℤ) (n : Nat → Nat → ℤ) :
    closest2d (g.moved (fun j i x => x + c + 360 * n j i) id) (xo.map (fun x => x + c + 360 * m)) yo = closest2d g xo yo := by
  refine closest2d_congr g (g.moved _ _) xo yo _ _ rfl rfl ?_
  intro j i
  unfold haversineN Grid2.moved
  dsimp only
  generalize g.lon j i = l1, g.lat j i = l2
  cases xo <;> cases yo <;> cases l1 <;> cases l2 <;> simp [haversine_turns]

/-- **C185** (closest point): changing the sign of all the latitudes does not change the closest point. -/
theorem C185_closest_mirror (g : Grid2) (xo yo : Option ℝ) :
    closest2d (g.moved (fun _ _ x => x) (fun y => -y)) xo (yo.map (fun y => -y)) = closest2d g xo yo := by
  refine closest2d_congr g (g.moved _ _) xo yo _ _ rfl rfl ?_
  intro j i
  unfold haversineN Grid2.moved
  dsimp only
  generalize g.lon j i = l1, g.lat j i = l2
  cases xo <;> cases yo <;> cases l1 <;> cases l2 <;> simp [haversine_mirror]

/-- the same cell with its corners shifted -/
def Cell.shifted (k : Cell) (c d : ℝ) : Cell := ⟨k.x1 + c, k.x2 + c, k.x3 + c, k.x4 + c, k.y1 + d, k.y2 + d, k.y3 + d, k.y4 + d⟩

/-- **C185** (location in a cell): shifting the corners and the target together along both axes does not change the location. -/
theorem C185_cell_shift (k : Cell) (x y c d : ℝ) : cell2relloc (k.shifted c d) (x + c) (y + d) = cell2relloc k x y := by
  unfold cell2relloc Cell.shifted
  have e1 : k.x4 + c - (k.x1 + c) = k.x4 - k.x1 := by ring
  have e2 : k.x2 + c - (k.x1 + c) = k.x2 - k.x1 := by ring
  have e3 : k.x3 + c - (k.x4 + c) - (k.x2 + c) + (k.x1 + c) = k.x3 - k.x4 - k.x2 + k.x1 := by ring
  have e4 : k.y4 + d - (k.y1 + d) = k.y4 - k.y1 := by ring
  have e5 : k.y2 + d - (k.y1 + d) = k.y2 - k.y1 := by ring
  have e6 : k.y3 + d - (k.y4 + d) - (k.y2 + d) + (k.y1 + d) = k.y3 - k.y4 - k.y2 + k.y1 := by ring
  have e7 : y + d - (k.y1 + d) = y - k.y1 := by ring
  have e8 : x + c - (k.x1 + c) = x - k.x1 := by ring
  simp only [e1, e2, e3, e4, e5, e6, e7, e8]

theorem moved_cell (g : Grid2) (c : ℝ) (j i : Nat) : (g.moved (fun _ _ x => x + c) id).cell j i = (g.cell j i).map (fun k => k.shifted c 0) := by
  unfold Grid2.cell Grid2.moved
  dsimp only
  generalize g.lon j i = a1, g.lon (j + 1) i = a2, g.lon (j + 1) (i + 1) = a3, g.lon j (i + 1) = a4
  generalize g.lat j i = b1, g.lat (j + 1) i = b2, g.lat (j + 1) (i + 1) = b3, g.lat j (i + 1) = b4
  rcases a1 with _ | a1; · rfl
  rcases a2 with _ | a2; · rfl
  rcases a3 with _ | a3; · rfl
  rcases a4 with _ | a4; · rfl
  rcases b1 with _ | b1; · rfl
  rcases b2 with _ | b2; · rfl
  rcases b3 with _ | b3; · rfl
  rcases b4 with _ | b4; · rfl
  simp only [Option.map_some, Option.bind_some, Cell.shifted, add_zero, id]

/-- **C185** (location in a grid): the same shift of all the longitudes, the one of the target included, does not change the location, nor the fact that it is not found. -/
theorem C185_relloc_shift (g : Grid2) (xo yo : Option ℝ) (c : ℝ) :
    grid2relloc (g.moved (fun _ _ x => x + c) id) (xo.map (fun x => x + c)) yo = grid2relloc g xo yo := by
  have hc : closest2d (g.moved (fun _ _ x => x + c) id) (xo.map (fun x => x + c)) yo = closest2d g xo yo := by
    have := C185_closest_turns g xo yo c 0 (fun _ _ => 0)
    simpa using this
  have hl : ∀ j i, cellLoc (g.moved (fun _ _ x => x + c) id) (xo.map (fun x => x + c)) yo j i = cellLoc g xo yo j i := by
    intro j i
    unfold cellLoc
    rw [moved_cell]
    cases g.cell j i with
    | none => rfl
    | some k =>
      cases xo with
      | none => rfl
      | some x =>
        cases yo with
        | none => rfl
        | some y =>
          have := C185_cell_shift k x y c 0
          rw [add_zero] at this
          exact this
  cases h : closest2d g xo yo with
  | error e => unfold grid2relloc; rw [hc, h]; rfl
  | ok p =>
    rw [grid2relloc_window _ _ _ p.1 p.2 (hc.trans h), grid2relloc_window _ _ _ p.1 p.2 h, hl]
    rfl

/-- **C185** (several targets): likewise for all the targets of `grid2rellocs`. -/
theorem C185_rellocs_shift (g : Grid2) (pts : List (Option ℝ × Option ℝ)) (c : ℝ) :
    grid2rellocs (g.moved (fun _ _ x => x + c) id) (pts.map (fun p => (p.1.map (fun x => x + c), p.2))) = grid2rellocs g pts := by
  unfold grid2rellocs
  rw [List.mapM_map]
  congr 1
  funext p
  exact C185_relloc_shift g p.1 p.2 c

theorem lerp_bounds (A B u v t : ℝ) (hu : A ≤ u ∧ u ≤ B) (hv : A ≤ v ∧ v ≤ B) (e : ℝ) (h0 : -e ≤ t) (h1 : t ≤ 1 + e) (he : 0 ≤ e) :
    A - e * (B - A) ≤ (1 - t) * u + t * v ∧ (1 - t) * u + t * v ≤ B + e * (B - A) := by
  obtain ⟨a1, a2⟩ := hu
  obtain ⟨b1, b2⟩ := hv
  rcases le_total t 0 with ht | ht
  · constructor <;> nlinarith [mul_nonneg (neg_nonneg.2 ht) (sub_nonneg.2 b1), mul_nonneg (neg_nonneg.2 ht) (sub_nonneg.2 b2), mul_nonneg (sub_nonneg.2 h0) (sub_nonneg.2 (a1.trans a2)),
      mul_nonneg (neg_nonneg.2 ht) (sub_nonneg.2 a1), mul_nonneg (neg_nonneg.2 ht) (sub_nonneg.2 a2)]
  · rcases le_total t 1 with ht1 | ht1
    · have := mul_nonneg he (sub_nonneg.2 (a1.trans a2))
      constructor <;> nlinarith [mul_nonneg ht (sub_nonneg.2 b1), mul_nonneg ht (sub_nonneg.2 b2), mul_nonneg (sub_nonneg.2 ht1) (sub_nonneg.2 a1), mul_nonneg (sub_nonneg.2 ht1) (sub_nonneg.2 a2)]
    · constructor <;> nlinarith [mul_nonneg ht (sub_nonneg.2 b1), mul_nonneg ht (sub_nonneg.2 b2), mul_nonneg (sub_nonneg.2 ht1) (sub_nonneg.2 a1), mul_nonneg (sub_nonneg.2 ht1) (sub_nonneg.2 a2),
        mul_nonneg (sub_nonneg.2 h1) (sub_nonneg.2 (a1.trans a2)), mul_nonneg (sub_nonneg.2 ht1) (sub_nonneg.2 b1), mul_nonneg (sub_nonneg.2 ht1) (sub_nonneg.2 b2)]

/-- **C185 is violated** by whole turns in the location in a grid: on a grid less than 350 degrees wide, with a target between its longitudes, the same target with whole turns added to its longitude is always
reported as outside (or there is an error), although its closest point is the same (`C185_closest_turns`). (Cells whose edges are nearly but not exactly parallel are put aside, see C71.) -/
theorem C185_relloc_turns_violated (g : Grid2) (x y A B : ℝ) (n : ℤ) (hn : n ≠ 0) (hAB : B - A < 350) (hx : A ≤ x ∧ x ≤ B)
    (hlon : ∀ j i l, g.lon j i = some l → A ≤ l ∧ l ≤ B) (hpar : ∀ i j k, HasCell g j i k → k.edgesCross = 0 ∨ 2 * epsF ≤ |k.edgesCross|) (r : ℝ × ℝ)
    (h : grid2relloc g (some (x + 360 * n)) (some y) = .ok r) : r = (-1, -1) := by
  refine C14_no_cell g (x + 360 * n) y hpar ?_ r h
  rintro i j k a b ⟨-, -, k1, k2, k3, k4, -⟩ ha0 ha1 hb0 hb1 he
  have b1 := hlon _ _ _ k1
  have b2 := hlon _ _ _ k2
  have b3 := hlon _ _ _ k3
  have b4 := hlon _ _ _ k4
  have hd : 0 ≤ B - A := by linarith [hx.1, hx.2]
  have he1 : epsF ≤ 1 / 1000 := by unfold epsF; norm_num
  have l1 := lerp_bounds A B k.x1 k.x2 b b1 b2 epsF hb0 hb1 epsF_pos.le
  have l2 := lerp_bounds A B k.x4 k.x3 b b4 b3 epsF hb0 hb1 epsF_pos.le
  have hw : epsF * (B - A) ≤ 1 := by nlinarith [epsF_pos]
  have hw0 : 0 ≤ epsF * (B - A) := mul_nonneg epsF_pos.le hd
  have l3 := lerp_bounds (A - 1) (B + 1) ((1 - b) * k.x1 + b * k.x2) ((1 - b) * k.x4 + b * k.x3) a ⟨by linarith [l1.1], by linarith [l1.2]⟩ ⟨by linarith [l2.1], by linarith [l2.2]⟩ epsF ha0 ha1 epsF_pos.le
  have hw2 : epsF * (B + 1 - (A - 1)) ≤ 1 := by nlinarith [epsF_pos]
  have hv : (k.at a b).1 = (1 - a) * ((1 - b) * k.x1 + b * k.x2) + a * ((1 - b) * k.x4 + b * k.x3) := by
    simp only [Cell.at]; ring
  have hv2 : (k.at a b).1 = x + 360 * n := by rw [he]
  rw [hv2] at hv
  rw [← hv] at l3
  rcases lt_or_gt_of_ne hn with hn | hn
  · have : (n : ℝ) ≤ -1 := by exact_mod_cast (by omega : n ≤ -1)
    linarith [l3.1, hx.1, hx.2]
  · have : (1 : ℝ) ≤ n := by exact_mod_cast hn
    linarith [l3.2, hx.1, hx.2]

/-- the hypotheses of `C185_relloc_turns_violated` are met by regular grids: an inner point, which is located at itself (`C72_inner_points`), is reported as outside one turn farther -/
theorem C185_regular_turn_violated (ny nx : Nat) (hx : nx ≤ 300) (hy : ny ≤ 80) (i j : Nat) (hi : i + 2 < nx) (hj : j + 2 < ny) :
    grid2relloc (regularGrid ny nx) (some ((i : ℝ) + 1)) (some ((j : ℝ) + 1)) = .ok (i + 1, j + 1) ∧
    grid2relloc (regularGrid ny nx) (some ((i : ℝ) + 1 + 360)) (some ((j : ℝ) + 1)) = .ok (-1, -1) := by
  refine ⟨C72_inner_points ny nx hx hy i j hi hj, ?_⟩
  have hcell : cellLoc (regularGrid ny nx) (some ((i : ℝ) + 1 + 360)) (some ((j : ℝ) + 1)) j i =
      cell2relloc ⟨i, i, i + 1, i + 1, j, j + 1, j + 1, j⟩ ((i : ℝ) + 1 + 360) ((j : ℝ) + 1) := by
    unfold cellLoc
    rw [(cell_some _ j i _ (by show j + 1 < ny; omega) (by show i + 1 < nx; omega)).2 (regular_cell ny nx i j (by omega) (by omega))]
    rfl
  have hloc : cell2relloc ⟨i, i, i + 1, i + 1, j, j + 1, j + 1, j⟩ ((i : ℝ) + 1 + 360) ((j : ℝ) + 1) = .ok (some (361, 1)) := by
    have := C13_parallelogram_exact ⟨i, i, i + 1, i + 1, j, j + 1, j + 1, j⟩ 361 1 (by ring) (by ring) (by simp [cross]) (Or.inr (by simp))
    simp only [Cell.at] at this
    rw [← this]
    congr 1 <;> ring
  have hcl : closest2d (regularGrid ny nx) (some ((i : ℝ) + 1 + 360)) (some ((j : ℝ) + 1)) = .ok (i + 1, j + 1) := by
    have h1 := C185_closest_turns (regularGrid ny nx) (some ((i : ℝ) + 1)) (some ((j : ℝ) + 1)) 0 1 (fun _ _ => 0)
    have h2 := regular_closest ny nx (i + 1) (j + 1) (by omega) (by omega) hx hy
    push_cast at h1 h2
    rw [h2] at h1
    rw [← h1]
    congr 1
    · simp [Grid2.moved, regularGrid]
    · simp
  rw [grid2relloc_window _ _ _ _ _ hcl, if_pos]
  · simp only [Nat.add_sub_cancel]
    rw [hcell, hloc]
    simp only [Except.map, Option.elim, inCell]
    have : ¬ ((361 : ℝ) ≤ 1 + epsF) := by unfold epsF; norm_num
    simp [this]
  · refine ⟨⟨by omega, ?_⟩, by omega, ?_⟩
    · show i + 1 + 2 ≤ nx; omega
    · show j + 1 + 2 ≤ ny; omega

end Xoa
