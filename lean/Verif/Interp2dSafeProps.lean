import Verif.GridLocProps

/-!
# The 2-D location routines use the elements of the grid only (C221)
-/

namespace Xoa

/-- two grids of the same shape with the same elements; what lies in memory outside of the arrays may differ -/
structure SameGrid (g g' : Grid2) : Prop where
  ny : g.ny = g'.ny
  nx : g.nx = g'.nx
  lon : ∀ j i : Nat, j < g.ny → i < g.nx → g.lon j i = g'.lon j i
  lat : ∀ j i : Nat, j < g.ny → i < g.nx → g.lat j i = g'.lat j i

theorem foldl_congr_mem {α β : Type} (f f' : β → α → β) : ∀ (l : List α) (s : β), (∀ a : α, a ∈ l → ∀ t : β, f t a = f' t a) → l.foldl f s = l.foldl f' s := by
  intro l
  induction l with
  | nil => intro s _; rfl
  | cons a l ih =>
    intro s h
    rw [List.foldl_cons, List.foldl_cons, h a (List.mem_cons_self ..)]
    exact ih _ (fun b hb => h b (List.mem_cons_of_mem _ hb))

theorem closest_same {g g' : Grid2} (h : SameGrid g g') (xo yo : Option ℝ) : closest2d g xo yo = closest2d g' xo yo := by
  unfold closest2d
  rw [← h.nx, ← h.ny]
  rw [foldl_congr_mem _ (fun s it => (List.range g.ny).foldl (closestStep g' xo yo it) s)]
  intro it hit t
  refine foldl_congr_mem _ _ _ _ (fun jt hjt u => ?_)
  unfold closestStep
  rw [h.lon jt it (List.mem_range.mp hjt) (List.mem_range.mp hit), h.lat jt it (List.mem_range.mp hjt) (List.mem_range.mp hit)]

theorem cellLoc_same {g g' : Grid2} (h : SameGrid g g') (xo yo : Option ℝ) (j i : Nat) (hj : j + 1 < g.ny) (hi : i + 1 < g.nx) :
    cellLoc g xo yo j i = cellLoc g' xo yo j i := by
  unfold cellLoc Grid2.cell
  rw [h.lon j i (by omega) (by omega), h.lon (j + 1) i hj (by omega), h.lon (j + 1) (i + 1) hj hi, h.lon j (i + 1) (by omega) hi,
    h.lat j i (by omega) (by omega), h.lat (j + 1) i hj (by omega), h.lat (j + 1) (i + 1) hj hi, h.lat j (i + 1) (by omega) hi]

theorem relInner_same {g g' : Grid2} (h : SameGrid g g') (xo yo : Option ℝ) (i : Nat) (hi : i + 1 < g.nx) : ∀ js : List Nat, (∀ j : Nat, j ∈ js → j + 1 < g.ny) →
    relInner g xo yo i js = relInner g' xo yo i js := by
  intro js
  induction js with
  | nil => intro _; rfl
  | cons j js ih =>
    intro hj
    unfold relInner
    rw [cellLoc_same h xo yo j i (hj j (List.mem_cons_self ..)) hi, ih (fun k hk => hj k (List.mem_cons_of_mem _ hk))]

theorem relOuter_same {g g' : Grid2} (h : SameGrid g g') (xo yo : Option ℝ) (js : List Nat) (hj : ∀ j : Nat, j ∈ js → j + 1 < g.ny) :
    ∀ is : List Nat, (∀ i : Nat, i ∈ is → i + 1 < g.nx) → relOuter g xo yo js is = relOuter g' xo yo js is := by
  intro is
  induction is with
  | nil => intro _; rfl
  | cons i is ih =>
    intro hi
    unfold relOuter
    rw [relInner_same h xo yo i (hi i (List.mem_cons_self ..)) js hj, ih (fun k hk => hi k (List.mem_cons_of_mem _ hk))]

theorem mem_locRange (lo hi : Int) (h0 : 0 ≤ lo) (k : Nat) : k ∈ locRange lo hi ↔ lo ≤ k ∧ (k : Int) < hi := by
  unfold locRange
  rw [List.mem_map]
  constructor
  · rintro ⟨m, hm, rfl⟩
    rw [List.mem_range] at hm
    push_cast
    omega
  · rintro ⟨a, b⟩
    exact ⟨k - lo.toNat, by rw [List.mem_range]; omega, by omega⟩

/-- **C221.** For all grids, of any shape, with any missing values, and all targets: what `closest2d`, `grid2relloc` and `grid2rellocs` give, or raise, depends on the elements
of the two arrays only, not on what lies in memory outside of them. -/
theorem C221_grid_only (g g' : Grid2) (h : SameGrid g g') (xo yo : Option ℝ) (pts : List (Option ℝ × Option ℝ)) :
    closest2d g xo yo = closest2d g' xo yo ∧ grid2relloc g xo yo = grid2relloc g' xo yo ∧ grid2rellocs g pts = grid2rellocs g' pts := by
  have hr : ∀ x y : Option ℝ, grid2relloc g x y = grid2relloc g' x y := by
    intro x y
    unfold grid2relloc
    rw [closest_same h x y, ← h.nx, ← h.ny]
    cases closest2d g' x y with
    | error e => rfl
    | ok c =>
      dsimp only [Except.bind]
      rw [relOuter_same h x y _ _ _]
      · intro i hi
        rw [mem_locRange _ _ (by omega)] at hi
        omega
      · intro j hj
        rw [mem_locRange _ _ (by omega)] at hj
        omega
  refine ⟨closest_same h xo yo, hr xo yo, ?_⟩
  unfold grid2rellocs
  have : (fun p : Option ℝ × Option ℝ => grid2relloc g p.1 p.2) = (fun p => grid2relloc g' p.1 p.2) := funext fun p => hr p.1 p.2
  rw [this]

/-- **C221 (indices).** The point that `closest2d` gives exists, whatever the target, missing or not. -/
theorem C221_closest_exists (g : Grid2) (xo yo : Option ℝ) (c : Nat × Nat) (h : closest2d g xo yo = .ok c) : c.1 < g.nx ∧ c.2 < g.ny := by
  unfold closest2d at h
  dsimp only at h
  have inv : ∀ (P : ClosestState → Prop) (f : ClosestState → Nat → ClosestState) (l : List Nat) (s : ClosestState), P s →
      (∀ (t : ClosestState) (a : Nat), a ∈ l → P t → P (f t a)) → P (l.foldl f s) := by
    intro P f l
    induction l with
    | nil => intro s hs _; exact hs
    | cons a l ih =>
      intro s hs hf
      exact ih _ (hf s a (List.mem_cons_self ..) hs) (fun t b hb => hf t b (List.mem_cons_of_mem _ hb))
  have key := inv (fun s => ∀ d : Nat × Nat, s.1 = some d → d.1 < g.nx ∧ d.2 < g.ny)
    (fun s it => (List.range g.ny).foldl (closestStep g xo yo it) s) (List.range g.nx) (none, Real.pi)
    (fun d hd => by cases hd)
    (fun t it hit ht => inv (fun s => ∀ d : Nat × Nat, s.1 = some d → d.1 < g.nx ∧ d.2 < g.ny) (closestStep g xo yo it) (List.range g.ny) t ht (fun u jt hjt hu d hd => by
      unfold closestStep at hd
      cases hv : haversineN xo yo (g.lon jt it) (g.lat jt it) with
      | none => rw [hv] at hd; exact hu d hd
      | some v =>
        rw [hv] at hd
        simp only [Option.elim_some] at hd
        split at hd
        · cases hd
          exact ⟨List.mem_range.mp hit, List.mem_range.mp hjt⟩
        · exact hu d hd))
  generalize (List.range g.nx).foldl (fun s it => (List.range g.ny).foldl (closestStep g xo yo it) s) (none, Real.pi) = s at h key
  cases hs : s.1 with
  | none => rw [hs] at h; cases h
  | some d =>
    rw [hs] at h
    cases h
    exact key c hs

/-- **C221 (undefined indices).** When the target is at the antipode of all points, or missing, the compiled `closest2d` returns integers that were never assigned (C70). Whatever these integers
are, the cells that `grid2relloc` then reads are cells of the grid. -/
theorem C221_any_indices (g : Grid2) (ic jc : Int) (i j : Nat) (hi : i ∈ locRange (max (ic - 1) 0) (min ic ((g.nx : Int) - 2)))
    (hj : j ∈ locRange (max (jc - 1) 0) (min jc ((g.ny : Int) - 2))) : i + 1 < g.nx ∧ j + 1 < g.ny := by
  rw [mem_locRange _ _ (by omega)] at hi hj
  omega

/-- two grids of 2 x 2 points that differ outside of their arrays only -/
example : SameGrid ⟨2, 2, fun _ i => some i, fun j _ => some j⟩ ⟨2, 2, fun _ i => if i < 2 then some (i : ℝ) else none, fun j _ => if j < 2 then some (j : ℝ) else none⟩ := by
  refine ⟨rfl, rfl, fun j i hj hi => ?_, fun j i hj hi => ?_⟩
  · have hi' : i < 2 := hi
    simp only [hi', if_true]
  · have hj' : j < 2 := hj
    simp only [hj', if_true]

end Xoa
