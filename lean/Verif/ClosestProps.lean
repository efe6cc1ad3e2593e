import Verif.HaversineProps

/-!
# C12: the closest point of a 2-D grid

Specification: `PointDist g xo yo i j r` says that the grid point `(j, i)` has known coordinates and
that its great circle distance to the target is `r`.
-/

namespace Xoa

open Real

/-- the grid point `(j, i)` is inside the arrays, has no NaN coordinate, and its great circle
distance to the target is `r` -/
def PointDist (g : Grid2) (xo yo : ℝ) (i j : Nat) (r : ℝ) : Prop :=
  j < g.ny ∧ i < g.nx ∧ ∃ x y, g.lon j i = some x ∧ g.lat j i = some y ∧ r = greatCircle xo yo x y

/-- the visiting order of the grid points, as `(i, j)` -/
def visited (g : Grid2) : List (Nat × Nat) :=
  (List.range g.nx).flatMap fun i => (List.range g.ny).map fun j => (i, j)

theorem mem_visited (g : Grid2) (c : Nat × Nat) : c ∈ visited g ↔ c.1 < g.nx ∧ c.2 < g.ny := by
  rcases c with ⟨i, j⟩
  simp only [visited, List.mem_flatMap, List.mem_range, List.mem_map, Prod.mk.injEq]
  constructor
  · rintro ⟨a, ha, b, hb, rfl, rfl⟩; exact ⟨ha, hb⟩
  · rintro ⟨h1, h2⟩; exact ⟨i, h1, j, h2, rfl, rfl⟩

theorem closest2d_visited (g : Grid2) (xo yo : Option ℝ) :
    closest2d g xo yo = (((visited g).foldl (fun s c => closestStep g xo yo c.1 s c.2) (none, π)).1).elim (.error .unbound) .ok := by
  unfold closest2d visited
  rw [List.foldl_flatMap]
  simp only [List.foldl_map]

/-- distance read by the loop -/
noncomputable def cdist (g : Grid2) (xo yo : Option ℝ) (c : Nat × Nat) : Option ℝ :=
  haversineN xo yo (g.lon c.2 c.1) (g.lat c.2 c.1)

theorem cdist_eq (g : Grid2) (xo yo : ℝ) (c : Nat × Nat) (hc : c.1 < g.nx ∧ c.2 < g.ny) (r : ℝ) :
    cdist g (some xo) (some yo) c = some r ↔ PointDist g xo yo c.1 c.2 r := by
  unfold cdist haversineN PointDist
  cases hx : g.lon c.2 c.1 <;> cases hy : g.lat c.2 c.1 <;>
    simp [C11_haversine_is_great_circle, hc.1, hc.2, eq_comm]

/-- the running minimum -/
theorem closest_fold (g : Grid2) (xo yo : Option ℝ) (m0 : ℝ) : ∀ l : List (Nat × Nat),
    let s := l.foldl (fun s c => closestStep g xo yo c.1 s c.2) ((none, m0) : ClosestState)
    (s.1 = none ∧ s.2 = m0 ∧ ∀ c ∈ l, ∀ r, cdist g xo yo c = some r → m0 ≤ r) ∨
    (∃ l1 c l2, l = l1 ++ c :: l2 ∧ s.1 = some c ∧ cdist g xo yo c = some s.2 ∧ s.2 < m0 ∧
      (∀ c' ∈ l1, ∀ r, cdist g xo yo c' = some r → s.2 < r) ∧ (∀ c' ∈ l2, ∀ r, cdist g xo yo c' = some r → s.2 ≤ r)) := by
  intro l
  induction l using List.reverseRecOn with
  | nil => left; simp
  | append_singleton l c ih =>
    intro s
    simp only at ih
    set s0 := l.foldl (fun s c => closestStep g xo yo c.1 s c.2) ((none, m0) : ClosestState) with hs0
    have hs : s = closestStep g xo yo c.1 s0 c.2 := by
      simp only [s, List.foldl_append, List.foldl_cons, List.foldl_nil, ← hs0]
    have hcd : haversineN xo yo (g.lon c.2 c.1) (g.lat c.2 c.1) = cdist g xo yo c := rfl
    unfold closestStep at hs
    rw [hcd] at hs
    cases hc : cdist g xo yo c with
    | none =>
      rw [hc, Option.elim_none] at hs
      rw [hs]
      rcases ih with ⟨a, b, h⟩ | ⟨l1, d, l2, e1, e2, e3, e4, e5, e6⟩
      · left; refine ⟨a, b, ?_⟩
        intro c' hc' r hr
        rcases List.mem_append.mp hc' with h' | h'
        · exact h c' h' r hr
        · rw [List.mem_singleton] at h'; subst h'; rw [hc] at hr; exact absurd hr (by simp)
      · right; refine ⟨l1, d, l2 ++ [c], by rw [e1]; simp, e2, e3, e4, e5, ?_⟩
        intro c' hc' r hr
        rcases List.mem_append.mp hc' with h' | h'
        · exact e6 c' h' r hr
        · rw [List.mem_singleton] at h'; subst h'; rw [hc] at hr; exact absurd hr (by simp)
    | some v =>
      rw [hc, Option.elim_some] at hs
      by_cases hv : v < s0.2
      · rw [if_pos hv] at hs
        rw [hs]
        right
        refine ⟨l, c, [], rfl, rfl, hc, ?_, ?_, by simp⟩
        · rcases ih with ⟨a, b, h⟩ | ⟨l1, d, l2, e1, e2, e3, e4, e5, e6⟩
          · rw [← b]; exact hv
          · exact hv.trans e4
        · intro c' hc' r hr
          rcases ih with ⟨a, b, h⟩ | ⟨l1, d, l2, e1, e2, e3, e4, e5, e6⟩
          · rw [b] at hv; exact lt_of_lt_of_le hv (h c' hc' r hr)
          · rw [e1] at hc'
            rcases List.mem_append.mp hc' with h' | h'
            · exact hv.trans (e5 c' h' r hr)
            · rcases List.mem_cons.mp h' with h' | h'
              · subst h'; rw [e3] at hr; rw [← Option.some.inj hr]; exact hv
              · exact lt_of_lt_of_le hv (e6 c' h' r hr)
      · rw [if_neg hv] at hs
        rw [hs]
        push Not at hv
        rcases ih with ⟨a, b, h⟩ | ⟨l1, d, l2, e1, e2, e3, e4, e5, e6⟩
        · left; refine ⟨a, b, ?_⟩
          intro c' hc' r hr
          rcases List.mem_append.mp hc' with h' | h'
          · exact h c' h' r hr
          · rw [List.mem_singleton] at h'; subst h'; rw [hc] at hr
            rw [← Option.some.inj hr, ← b]; exact hv
        · right; refine ⟨l1, d, l2 ++ [c], by rw [e1]; simp, e2, e3, e4, e5, ?_⟩
          intro c' hc' r hr
          rcases List.mem_append.mp hc' with h' | h'
          · exact e6 c' h' r hr
          · rw [List.mem_singleton] at h'; subst h'; rw [hc] at hr
            rw [← Option.some.inj hr]; exact hv

/-- **C12.** When `closest2d` returns indices, they are valid indices of the grid and designate a
point at minimal great circle distance from the target among all the points with known
coordinates. -/
theorem C12_closest_minimal (g : Grid2) (xo yo : ℝ) (i j : Nat) (h : closest2d g (some xo) (some yo) = .ok (i, j)) :
    ∃ r, PointDist g xo yo i j r ∧ ∀ i' j' r', PointDist g xo yo i' j' r' → r ≤ r' := by
  rw [closest2d_visited] at h
  rcases closest_fold g (some xo) (some yo) π (visited g) with ⟨a, -, -⟩ | ⟨l1, c, l2, e1, e2, e3, e4, e5, e6⟩
  · rw [a] at h; simp at h
  · rw [e2] at h
    simp only [Option.elim_some, Except.ok.injEq] at h
    subst h
    have hm : (i, j) ∈ visited g := by rw [e1]; simp
    rw [mem_visited] at hm
    refine ⟨_, (cdist_eq g xo yo (i, j) hm _).mp e3, ?_⟩
    intro i' j' r' hp
    have hm' : (i', j') ∈ visited g := by rw [mem_visited]; exact ⟨hp.2.1, hp.1⟩
    have hr := (cdist_eq g xo yo (i', j') ⟨hp.2.1, hp.1⟩ r').mpr hp
    rw [e1] at hm'
    rcases List.mem_append.mp hm' with h' | h'
    · exact (e5 _ h' _ hr).le
    · rcases List.mem_cons.mp h' with h' | h'
      · rw [h'] at hr; rw [e3] at hr; exact (Option.some.inj hr).le
      · exact e6 _ h' _ hr

theorem lt_visited {l1 l2 : List (Nat × Nat)} {c c' : Nat × Nat} (g : Grid2) (e : visited g = l1 ++ c :: l2) (hc' : c' ∈ visited g)
    (hlt : c'.1 < c.1 ∨ c'.1 = c.1 ∧ c'.2 < c.2) : c' ∈ l1 := by
  have hp : (visited g).Pairwise fun a b => a.1 < b.1 ∨ a.1 = b.1 ∧ a.2 < b.2 := by
    unfold visited
    rw [List.pairwise_flatMap]
    constructor
    · intro i _
      rw [List.pairwise_map]
      exact List.pairwise_lt_range.imp fun h => Or.inr ⟨rfl, h⟩
    · exact List.pairwise_lt_range.imp fun h => by
        intro a ha b hb
        simp only [List.mem_map] at ha hb
        obtain ⟨_, _, rfl⟩ := ha; obtain ⟨_, _, rfl⟩ := hb
        exact Or.inl h
  rw [e] at hp hc'
  rcases List.mem_append.mp hc' with h | h
  · exact h
  · rcases List.mem_cons.mp h with h | h
    · subst h; omega
    · have := (List.pairwise_cons.mp (List.pairwise_append.mp hp).2.1).1 c' h
      omega

/-- **C12.** Among several closest points, the one with the smallest index along the second
dimension, then along the first one, is returned. -/
theorem C12_closest_first (g : Grid2) (xo yo : ℝ) (i j : Nat) (h : closest2d g (some xo) (some yo) = .ok (i, j))
    (i' j' : Nat) (r : ℝ) (hr : PointDist g xo yo i j r) (hr' : PointDist g xo yo i' j' r) : i < i' ∨ (i = i' ∧ j ≤ j') := by
  rw [closest2d_visited] at h
  rcases closest_fold g (some xo) (some yo) π (visited g) with ⟨a, -, -⟩ | ⟨l1, c, l2, e1, e2, e3, e4, e5, e6⟩
  · rw [a] at h; simp at h
  · rw [e2] at h
    simp only [Option.elim_some, Except.ok.injEq] at h
    subst h
    by_contra hn
    have hin := lt_visited g e1 (c' := (i', j')) ((mem_visited g _).mpr ⟨hr'.2.1, hr'.1⟩) (by simp only; omega)
    have h1 := e5 _ hin r ((cdist_eq g xo yo (i', j') ⟨hr'.2.1, hr'.1⟩ r).mpr hr')
    have h2 := (cdist_eq g xo yo (i, j) ⟨hr.2.1, hr.1⟩ r).mpr hr
    rw [e3] at h2
    have := Option.some.inj h2
    linarith

/-- **C70.** `closest2d` returns indices exactly when some point of the grid with known coordinates
is not the antipode of the target; otherwise its result variables are never assigned. -/
theorem C70_closest_defined_iff_partial (g : Grid2) (xo yo : ℝ) :
    (∃ c, closest2d g (some xo) (some yo) = .ok c) ↔ ∃ i j r, PointDist g xo yo i j r ∧ r < π := by
  rw [closest2d_visited]
  rcases closest_fold g (some xo) (some yo) π (visited g) with ⟨a, b, h⟩ | ⟨l1, c, l2, e1, e2, e3, e4, e5, e6⟩
  · rw [a]
    simp only [Option.elim_none, reduceCtorEq, exists_false, false_iff]
    rintro ⟨i, j, r, hp, hlt⟩
    have := h (i, j) ((mem_visited g _).mpr ⟨hp.2.1, hp.1⟩) r ((cdist_eq g xo yo (i, j) ⟨hp.2.1, hp.1⟩ r).mpr hp)
    linarith
  · rw [e2]
    have hm : c ∈ visited g := by rw [e1]; simp
    rw [mem_visited] at hm
    refine ⟨fun _ => ⟨c.1, c.2, _, (cdist_eq g xo yo c hm _).mp e3, e4⟩, fun _ => ⟨c, rfl⟩⟩

/-- **C70, violated.** A grid reduced to the antipode of the target is not empty, yet `closest2d` returns
no index: its variables `i, j` are not assigned. -/
theorem C70_closest_antipode_violated :
    ∃ g : Grid2, g.ny = 1 ∧ g.nx = 1 ∧ g.lon 0 0 = some 0 ∧ g.lat 0 0 = some (-90) ∧
      closest2d g (some 0) (some 90) = .error .unbound := by
  refine ⟨⟨1, 1, fun _ _ => some 0, fun _ _ => some (-90)⟩, rfl, rfl, rfl, rfl, ?_⟩
  have h : haversine 0 90 0 (-90) = some π := by
    rw [C11_haversine_meridian _ _ _ (by norm_num [abs_le])]; norm_num
  simp [closest2d, closestStep, haversineN, h]

/-- **C12.** A target with a NaN coordinate, or a grid whose points all have one, gives no index. -/
theorem C12_closest_nan (g : Grid2) (xo yo : Option ℝ)
    (h : xo = none ∨ yo = none ∨ ∀ j i, j < g.ny → i < g.nx → g.lon j i = none ∨ g.lat j i = none) :
    closest2d g xo yo = .error .unbound := by
  have hn : ∀ c ∈ visited g, cdist g xo yo c = none := by
    intro c hc
    unfold cdist haversineN
    rcases h with h | h | h
    · simp [h]
    · cases xo <;> simp [h]
    · rw [mem_visited] at hc
      rcases h c.2 c.1 hc.2 hc.1 with h | h
      · cases xo <;> cases yo <;> simp [h]
      · cases xo <;> cases yo <;> cases g.lon c.2 c.1 <;> simp [h]
  rw [closest2d_visited]
  rcases closest_fold g xo yo π (visited g) with ⟨a, b, h⟩ | ⟨l1, c, l2, e1, e2, e3, e4, e5, e6⟩
  · rw [a]; rfl
  · rw [hn c (by rw [e1]; simp)] at e3; simp at e3

/-- a grid point equal to the target and different from all the others is the one returned -/
theorem closest_exact (g : Grid2) (xo yo : ℝ) (i j : Nat) (hi : i < g.nx) (hj : j < g.ny) (hx : g.lon j i = some xo) (hy : g.lat j i = some yo)
    (hu : ∀ i' j', i' < g.nx → j' < g.ny → g.lon j' i' = some xo → g.lat j' i' = some yo → i' = i ∧ j' = j)
    (hr : ∀ j' i' x y, j' < g.ny → i' < g.nx → g.lon j' i' = some x → g.lat j' i' = some y → -90 < y ∧ y < 90 ∧ |xo - x| < 360) :
    closest2d g (some xo) (some yo) = .ok (i, j) := by
  have h0 : greatCircle xo yo xo yo = 0 := by
    have := C11_haversine_self xo yo
    rw [C11_haversine_is_great_circle] at this; exact Option.some.inj this
  have hp : PointDist g xo yo i j 0 := ⟨hj, hi, xo, yo, hx, hy, h0.symm⟩
  obtain ⟨⟨i1, j1⟩, hc⟩ := (C70_closest_defined_iff_partial g xo yo).mpr ⟨i, j, 0, hp, pi_pos⟩
  obtain ⟨r, hpr, hmin⟩ := C12_closest_minimal g xo yo i1 j1 hc
  have hr0 := hmin i j 0 hp
  obtain ⟨hj1, hi1, x, y, ex, ey, er⟩ := hpr
  have hrr : r = 0 := le_antisymm hr0 (er ▸ InnerProductGeometry.angle_nonneg ..)
  have hz : haversine xo yo x y = some 0 := by rw [C11_haversine_is_great_circle, ← er, hrr]
  obtain ⟨h1, h2, h3⟩ := hr j1 i1 x y hj1 hi1 ex ey
  obtain ⟨h4, h5, -⟩ := hr j i xo yo hj hi hx hy
  obtain ⟨e1, e2⟩ := C11_haversine_zero_coordinates xo yo x y h4 h5 h1 h2 h3 hz
  subst e1; subst e2
  obtain ⟨e3, e4⟩ := hu i1 j1 hi1 hj1 ex ey
  rw [hc, e3, e4]

/-- the hypotheses are met: a 3 by 4 grid with a missing point, and the target on one of its points -/
example : closest2d ⟨3, 4, fun j i => if j = 0 ∧ i = 0 then none else some (2 * i), fun j _ => some (40 + j)⟩ (some 4) (some 41) = .ok (2, 1) := by
  apply closest_exact
  · decide
  · decide
  · norm_num
  · norm_num
  · intro i' j' _ _ h1 h2
    simp only [ite_eq_iff, Option.some.injEq] at h1 h2
    have e1 : (i' : ℝ) = 2 := by
                             rcases h1 with ⟨_, h⟩ | ⟨_, h⟩
                             · simp at h
                             · linarith
    have e2 : (j' : ℝ) = 1 := by linarith
    exact ⟨by exact_mod_cast e1, by exact_mod_cast e2⟩
  · intro j' i' x y hj hi h1 h2
    simp only [ite_eq_iff, Option.some.injEq] at h1 h2
    have e1 : x = 2 * i' := by
                             rcases h1 with ⟨_, h⟩ | ⟨_, h⟩
                             · simp at h
                             · linarith
    have e3 : (j' : ℝ) < 3 := by exact_mod_cast hj
    have e4 : (i' : ℝ) < 4 := by exact_mod_cast hi
    have e5 : (0 : ℝ) ≤ j' := Nat.cast_nonneg _
    have e6 : (0 : ℝ) ≤ i' := Nat.cast_nonneg _
    subst e1; subst h2
    refine ⟨by linarith, by linarith, ?_⟩
    rw [abs_lt]; constructor <;> linarith

end Xoa
