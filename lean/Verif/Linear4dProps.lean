import Verif.Linear4d
import Mathlib.Tactic.Linarith

/-! # Interpolation to random positions (C144) -/

namespace Xoa

/-- **C144 is violated** for all the inputs: no value is ever returned; there is an exception or `None`. -/
theorem C144_no_value_violated (g : Lin4) (pts : List Pos4) (v : List (List (Option ℝ))) : linear4dto1dxx g pts ≠ .values v := by
  unfold linear4dto1dxx
  split
  · simp
  · next b _ =>
    split
    · induction pts with
      | nil => simp [pointLoop]
      | cons p ps ih =>
        rw [pointLoop]
        split
        · simp
        · exact ih
        · exact ih
    · simp

/-- **C144 is violated** (points of the grid): points that are in the ranges of the grid are all skipped, whatever the data at the
other places: nothing is computed and there is no exception. -/
theorem C144_inside_violated (g : Lin4) (pts : List Pos4) (b : Bounds4) (hb : bounds4 g = some b) (ha : g.asserts = true)
    (hin : ∀ p ∈ pts, insideBox g b p) : linear4dto1dxx g pts = .none_ := by
  unfold linear4dto1dxx
  rw [hb]
  simp only [ha, if_true]
  induction pts with
  | nil => rfl
  | cons p ps ih =>
    rw [pointLoop]
    have : pointStep g b p = .skip := by
      unfold pointStep
      rw [if_pos (hin p List.mem_cons_self)]
    rw [this]
    exact ih (fun q hq => hin q (List.mem_cons_of_mem _ hq))

/-- **C144 is violated** (other points): on a rectangular grid, one point that is not in the ranges is enough for an exception
(for data with at least as many extra items as the depths). -/
theorem C144_outside_violated (g : Lin4) (pts : List Pos4) (b : Bounds4) (hb : bounds4 g = some b)
    (hc : g.curved = false) (hz : 0 < g.nexz) (hx : g.nexz ≤ g.nex) (p : Pos4) (hp : p ∈ pts) (hout : ¬ insideBox g b p) :
    linear4dto1dxx g pts = .raised := by
  have hend : endStep g = .raised := by
    have h1 : g.nex ≠ 0 := by omega
    have h2 : g.nexz ≠ 0 := by omega
    have h3 : g.nex / g.nexz ≠ 0 := by
      have := Nat.div_pos hx hz
      omega
    unfold endStep
    simp only [h2, h3, if_false, ite_self]
  have hstep : pointStep g b p = .raised := by
    unfold pointStep
    rw [if_neg hout, hc]
    simp only [Bool.false_eq_true, if_false, hend, ite_self]
  unfold linear4dto1dxx
  rw [hb]
  simp only
  split
  · induction pts with
    | nil => exact absurd hp (by simp)
    | cons q qs ih =>
      rw [pointLoop]
      rcases List.mem_cons.1 hp with rfl | hq
      · rw [hstep]
      · cases pointStep g b q with
        | raised => rfl
        | skip => exact ih hq
        | done => exact ih hq
  · rfl

/-- a rectangular grid of two longitudes and two latitudes, one level and one time -/
noncomputable def exLin4 : Lin4 :=
  { xxi := ⟨1, 2, fun _ i => i⟩, yyi := ⟨2, 1, fun j _ => j⟩, nexz := 1, ntiz := 1, nyiz := 1, nxiz := 1, zzi := [0], ti := [0],
    nex := 1, nti := 1, nzi := 1, nyi := 2, nxi := 2, vi := [some 0, some 1, some 2, some 3] }

/-- the hypotheses are met: a point at the centre of the cell is in the ranges, a point beyond the grid is not -/
example : ∃ b, bounds4 exLin4 = some b ∧ exLin4.asserts = true ∧ exLin4.curved = false ∧ 0 < exLin4.nexz ∧ exLin4.nexz ≤ exLin4.nex ∧
    insideBox exLin4 b ⟨1/2, 1/2, 0, 0⟩ ∧ ¬ insideBox exLin4 b ⟨2, 1/2, 0, 0⟩ := by
  refine ⟨⟨some 0, 1, 0, 1, 0, 0, 0, 0⟩, ?_, ?_, ?_, ?_, ?_, ?_, ?_⟩
  · simp [bounds4, exLin4, minOfData, minOf, maxOf, A2.flat, List.range_succ, List.flatMap]
  · simp [Lin4.asserts, Lin4.curved, exLin4]
  · simp [Lin4.curved, exLin4]
  · simp [exLin4]
  · simp [exLin4]
  · simp [insideBox, exLin4, geMissing]; norm_num
  · simp [insideBox, exLin4, geMissing]

/-! ## The same without the names of the model -/

/-- the position is in the ranges that the function compares it with: the longitude between the smallest datum (none may be missing) and the largest longitude, the others between the smallest and the
largest coordinate; an axis along which the data have size 1 is not tested -/
def InRanges (g : Lin4) (p : Pos4) : Prop :=
  (g.nxi = 1 ∨ ((∀ v ∈ g.vi, v ≠ none) ∧ (∃ v ∈ g.vi, ∃ m : ℝ, v = some m ∧ m ≤ p.x) ∧ ∃ j i : Nat, j < g.xxi.ny ∧ i < g.xxi.nx ∧ p.x ≤ g.xxi.val j i)) ∧
  (g.nyi = 1 ∨ ((∃ j i : Nat, j < g.yyi.ny ∧ i < g.yyi.nx ∧ g.yyi.val j i ≤ p.y) ∧ ∃ j i : Nat, j < g.yyi.ny ∧ i < g.yyi.nx ∧ p.y ≤ g.yyi.val j i)) ∧
  (g.nzi = 1 ∨ ((∃ z ∈ g.zzi, z ≤ p.z) ∧ ∃ z ∈ g.zzi, p.z ≤ z)) ∧ (g.nti = 1 ∨ ((∃ t ∈ g.ti, t ≤ p.t) ∧ ∃ t ∈ g.ti, p.t ≤ t))

/-- no array is empty -/
def NotEmpty4 (g : Lin4) : Prop :=
  g.vi ≠ [] ∧ 0 < g.xxi.ny ∧ 0 < g.xxi.nx ∧ 0 < g.yyi.ny ∧ 0 < g.yyi.nx ∧ g.zzi ≠ [] ∧ g.ti ≠ []

theorem foldl_min_le (l : List ℝ) (x y : ℝ) : l.foldl min x ≤ y ↔ ∃ z ∈ x :: l, z ≤ y := by
  induction l generalizing x with
  | nil => simp
  | cons a l ih =>
    rw [List.foldl_cons, ih]
    simp only [List.mem_cons, exists_eq_or_imp, min_le_iff]
    tauto

theorem le_foldl_max (l : List ℝ) (x y : ℝ) : y ≤ l.foldl max x ↔ ∃ z ∈ x :: l, y ≤ z := by
  induction l generalizing x with
  | nil => simp
  | cons a l ih =>
    rw [List.foldl_cons, ih]
    simp only [List.mem_cons, exists_eq_or_imp, le_max_iff]
    tauto

theorem minOf_le {l : List ℝ} {m : ℝ} (h : minOf l = some m) (y : ℝ) : m ≤ y ↔ ∃ z ∈ l, z ≤ y := by
  cases l with
  | nil => cases h
  | cons x l => cases h; exact foldl_min_le l x y

theorem le_maxOf {l : List ℝ} {m : ℝ} (h : maxOf l = some m) (y : ℝ) : y ≤ m ↔ ∃ z ∈ l, y ≤ z := by
  cases l with
  | nil => cases h
  | cons x l => cases h; exact le_foldl_max l x y

theorem mem_flat (a : A2) (x : ℝ) : x ∈ a.flat ↔ ∃ j i : Nat, j < a.ny ∧ i < a.nx ∧ x = a.val j i := by
  unfold A2.flat
  simp only [List.mem_flatMap, List.mem_map, List.mem_range]
  constructor
  · rintro ⟨j, hj, i, hi, rfl⟩; exact ⟨j, i, hj, hi, rfl⟩
  · rintro ⟨j, i, hj, hi, rfl⟩; exact ⟨j, hj, i, hi, rfl⟩

theorem flat_ne (a : A2) (h1 : 0 < a.ny) (h2 : 0 < a.nx) : a.flat ≠ [] := by
  intro h
  have : a.val 0 0 ∈ a.flat := (mem_flat a _).2 ⟨0, 0, h1, h2, rfl⟩
  rw [h] at this
  cases this

theorem geMissing_iff {l : List (Option ℝ)} {m : Option ℝ} (h : minOfData l = some m) (x : ℝ) :
    geMissing x m ↔ (∀ v ∈ l, v ≠ none) ∧ ∃ v ∈ l, ∃ m : ℝ, v = some m ∧ m ≤ x := by
  unfold minOfData at h
  split at h
  · cases h
  · cases h
    split
    case isTrue hn =>
      refine ⟨fun h => absurd h (by simp [geMissing]), fun h => absurd rfl (h.1 none hn)⟩
    case isFalse hl hn =>
      have hall : ∀ v ∈ l, v ≠ none := fun v hv e => hn (e ▸ hv)
      cases hm : minOf (l.filterMap id) with
      | none =>
        exfalso
        cases l with
        | nil => exact hl rfl
        | cons a l =>
          cases a with
          | none => exact hn List.mem_cons_self
          | some a => simp [minOf] at hm
      | some m =>
        show x ≥ m ↔ _
        rw [ge_iff_le, minOf_le hm x]
        simp only [List.mem_filterMap, id]
        constructor
        · rintro ⟨z, ⟨v, hv, rfl⟩, hz⟩; exact ⟨hall, _, hv, z, rfl, hz⟩
        · rintro ⟨-, v, hv, z, rfl, hz⟩; exact ⟨z, ⟨_, hv, rfl⟩, hz⟩

theorem bounds4_ranges (g : Lin4) (b : Bounds4) (hb : bounds4 g = some b) (p : Pos4) : insideBox g b p ↔ InRanges g p := by
  unfold bounds4 at hb
  simp only [Option.bind_eq_some_iff] at hb
  obtain ⟨xmin, h1, xmax, h2, ymin, h3, ymax, h4, zmin, h5, zmax, h6, tmin, h7, tmax, h8, e⟩ := hb
  cases e
  unfold insideBox InRanges
  simp only [ge_iff_le]
  rw [geMissing_iff h1, le_maxOf h2, minOf_le h3, le_maxOf h4, minOf_le h5, le_maxOf h6, minOf_le h7, le_maxOf h8]
  simp only [mem_flat]
  have e1 : ∀ (a : A2) (q : ℝ → Prop), (∃ z, (∃ j i : Nat, j < a.ny ∧ i < a.nx ∧ z = a.val j i) ∧ q z) ↔ ∃ j i : Nat, j < a.ny ∧ i < a.nx ∧ q (a.val j i) := by
    intro a q
    constructor
    · rintro ⟨z, ⟨j, i, hj, hi, rfl⟩, hq⟩; exact ⟨j, i, hj, hi, hq⟩
    · rintro ⟨j, i, hj, hi, hq⟩; exact ⟨_, ⟨j, i, hj, hi, rfl⟩, hq⟩
  simp only [e1]
  rw [and_assoc]

theorem bounds4_some (g : Lin4) (h : NotEmpty4 g) : ∃ b, bounds4 g = some b := by
  obtain ⟨h1, h2, h3, h4, h5, h6, h7⟩ := h
  have mn : ∀ l : List ℝ, l ≠ [] → ∃ m, minOf l = some m := by intro l hl; cases l with | nil => exact absurd rfl hl | cons x l => exact ⟨_, rfl⟩
  have mx : ∀ l : List ℝ, l ≠ [] → ∃ m, maxOf l = some m := by intro l hl; cases l with | nil => exact absurd rfl hl | cons x l => exact ⟨_, rfl⟩
  obtain ⟨a, ea⟩ := mx _ (flat_ne g.xxi h2 h3)
  obtain ⟨b, eb⟩ := mn _ (flat_ne g.yyi h4 h5)
  obtain ⟨c, ec⟩ := mx _ (flat_ne g.yyi h4 h5)
  obtain ⟨d, ed⟩ := mn _ h6
  obtain ⟨e, ee⟩ := mx _ h6
  obtain ⟨f, ef⟩ := mn _ h7
  obtain ⟨k, ek⟩ := mx _ h7
  obtain ⟨w, ew⟩ : ∃ w, minOfData g.vi = some w := ⟨_, by unfold minOfData; rw [if_neg h1]⟩
  exact ⟨⟨w, a, b, c, d, e, f, k⟩, by unfold bounds4; rw [ew, ea, eb, ec, ed, ee, ef, ek]; rfl⟩

theorem bounds4_empty (g : Lin4) (h : ¬ NotEmpty4 g) : bounds4 g = none := by
  by_contra hc
  obtain ⟨b, hb⟩ := Option.ne_none_iff_exists'.1 hc
  unfold bounds4 at hb
  simp only [Option.bind_eq_some_iff] at hb
  obtain ⟨xmin, h1, xmax, h2, ymin, h3, ymax, h4, zmin, h5, zmax, h6, tmin, h7, tmax, h8, -⟩ := hb
  have ne : ∀ (a : A2) (m : ℝ), maxOf a.flat = some m → 0 < a.ny ∧ 0 < a.nx := by
    intro a m h
    have : a.flat ≠ [] := by intro e; rw [e] at h; cases h
    obtain ⟨x, hx⟩ := List.exists_mem_of_ne_nil _ this
    obtain ⟨j, i, hj, hi, -⟩ := (mem_flat a x).1 hx
    omega
  refine h ⟨?_, (ne _ _ h2).1, (ne _ _ h2).2, (ne _ _ h4).1, (ne _ _ h4).2, ?_, ?_⟩
  · intro e; rw [e] at h1; simp [minOfData] at h1
  · intro e; rw [e] at h5; cases h5
  · intro e; rw [e] at h7; cases h7

/-- **C144 is violated**: with the shapes that the function expects and no empty array, positions in the ranges of the grid are all skipped, and the result is `None`. -/
theorem C144_in_ranges_violated (g : Lin4) (hne : NotEmpty4 g) (hc : g.xxi.ny = 1 ∨ (g.nxi = g.yyi.nx ∧ g.nyi = g.xxi.ny)) (hx : g.nxiz = 1 ∨ g.nxiz = g.nxi)
    (hy : g.nyiz = 1 ∨ g.nyiz = g.nyi) (ht : g.ntiz = 1 ∨ g.ntiz = g.nti) (pts : List Pos4) (hin : ∀ p ∈ pts, InRanges g p) :
    linear4dto1dxx g pts = .none_ := by
  obtain ⟨b, hb⟩ := bounds4_some g hne
  refine C144_inside_violated g pts b hb ?_ (fun p hp => (bounds4_ranges g b hb p).2 (hin p hp))
  unfold Lin4.asserts Lin4.curved
  simp only [Bool.and_eq_true, Bool.or_eq_true, decide_eq_true_eq, Bool.not_eq_true', decide_eq_false_iff_not, ne_eq, not_not]
  exact ⟨⟨⟨hc, hx⟩, hy⟩, ht⟩

/-- **C144 is violated**: on a rectangular grid (with at least as many extra items in the data as in the depths), one position out of the ranges is enough for an exception, whatever the rest. -/
theorem C144_out_of_ranges_violated (g : Lin4) (hc : g.xxi.ny = 1) (hz : 0 < g.nexz) (hx : g.nexz ≤ g.nex) (pts : List Pos4) (p : Pos4) (hp : p ∈ pts) (hout : ¬ InRanges g p) :
    linear4dto1dxx g pts = .raised := by
  by_cases hne : NotEmpty4 g
  · obtain ⟨b, hb⟩ := bounds4_some g hne
    refine C144_outside_violated g pts b hb (by simp [Lin4.curved, hc]) hz hx p hp (fun h => hout ((bounds4_ranges g b hb p).1 h))
  · unfold linear4dto1dxx
    rw [bounds4_empty g hne]

/-- **C144 is violated** on curvilinear grids: with suitable shapes, no empty array and at least as many extra items in the data as in the depths, the result is `None` if each position is in the ranges
of the grid or is located out of it (relative location before the first cell or after the last point), and there is an exception otherwise. -/
theorem C144_curved_violated (g : Lin4) (hne : NotEmpty4 g) (hc : g.xxi.ny ≠ 1 ∧ g.nxi = g.yyi.nx ∧ g.nyi = g.xxi.ny) (hx : g.nxiz = 1 ∨ g.nxiz = g.nxi)
    (hy : g.nyiz = 1 ∨ g.nyiz = g.nyi) (ht : g.ntiz = 1 ∨ g.ntiz = g.nti) (hz : 0 < g.nexz) (hex : g.nexz ≤ g.nex) (pts : List Pos4) :
    linear4dto1dxx g pts = (open Classical in
      if ∀ p ∈ pts, InRanges g p ∨ ∃ i j : ℝ, grid2relloc g.grid2 (some p.x) (some p.y) = .ok (i, j) ∧ (i < 1 ∨ (g.nxi : ℝ) < i ∨ j < 1 ∨ (g.nyi : ℝ) < j)
      then .none_ else .raised) := by
  obtain ⟨b, hb⟩ := bounds4_some g hne
  have hend : endStep g = .raised := by
    have h1 : g.nex ≠ 0 := by omega
    have h2 : g.nexz ≠ 0 := by omega
    have h3 : g.nex / g.nexz ≠ 0 := by
      have := Nat.div_pos hex hz
      omega
    unfold endStep
    simp only [h2, h3, if_false, ite_self]
  have ha : g.asserts = true := by
    unfold Lin4.asserts Lin4.curved
    simp only [Bool.and_eq_true, Bool.or_eq_true, decide_eq_true_eq, Bool.not_eq_true', decide_eq_false_iff_not, ne_eq, not_not]
    exact ⟨⟨⟨Or.inr hc.2, hx⟩, hy⟩, ht⟩
  have hstep : ∀ p : Pos4, pointStep g b p = (open Classical in
      if InRanges g p ∨ ∃ i j : ℝ, grid2relloc g.grid2 (some p.x) (some p.y) = .ok (i, j) ∧ (i < 1 ∨ (g.nxi : ℝ) < i ∨ j < 1 ∨ (g.nyi : ℝ) < j)
      then L4Step.skip else .raised) := by
    intro p
    unfold pointStep
    by_cases h1 : insideBox g b p
    · rw [if_pos h1, if_pos (Or.inl ((bounds4_ranges g b hb p).1 h1))]
    · rw [if_neg h1, if_pos (by simp [Lin4.curved, hc.1])]
      have h2 : ¬ InRanges g p := fun h => h1 ((bounds4_ranges g b hb p).2 h)
      cases hr : grid2relloc g.grid2 (some p.x) (some p.y) with
      | error e =>
        dsimp only
        rw [if_neg]
        rintro (h | ⟨i, j, h, -⟩)
        · exact h2 h
        · cases h
      | ok pq =>
        dsimp only
        rw [hend]
        simp only [ite_self]
        by_cases h3 : pq.1 < 1 ∨ pq.1 > g.nxi ∨ pq.2 < 1 ∨ pq.2 > g.nyi
        · rw [if_pos h3, if_pos (Or.inr ⟨pq.1, pq.2, rfl, h3⟩)]
        · rw [if_neg h3, if_neg]
          rintro (h | ⟨i, j, h, h4⟩)
          · exact h2 h
          · cases h; exact h3 h4
  unfold linear4dto1dxx
  rw [hb]
  simp only [ha, if_true]
  induction pts with
  | nil => simp [pointLoop]
  | cons p ps ih =>
    rw [pointLoop, hstep p, ih]
    have hcons : (∀ q ∈ p :: ps, InRanges g q ∨ ∃ i j : ℝ, grid2relloc g.grid2 (some q.x) (some q.y) = .ok (i, j) ∧ (i < 1 ∨ (g.nxi : ℝ) < i ∨ j < 1 ∨ (g.nyi : ℝ) < j)) ↔
        (InRanges g p ∨ ∃ i j : ℝ, grid2relloc g.grid2 (some p.x) (some p.y) = .ok (i, j) ∧ (i < 1 ∨ (g.nxi : ℝ) < i ∨ j < 1 ∨ (g.nyi : ℝ) < j)) ∧
        ∀ q ∈ ps, InRanges g q ∨ ∃ i j : ℝ, grid2relloc g.grid2 (some q.x) (some q.y) = .ok (i, j) ∧ (i < 1 ∨ (g.nxi : ℝ) < i ∨ j < 1 ∨ (g.nyi : ℝ) < j) := List.forall_mem_cons
    by_cases h2 : InRanges g p ∨ ∃ i j : ℝ, grid2relloc g.grid2 (some p.x) (some p.y) = .ok (i, j) ∧ (i < 1 ∨ (g.nxi : ℝ) < i ∨ j < 1 ∨ (g.nyi : ℝ) < j)
    · rw [if_pos h2]
      dsimp only
      by_cases h3 : ∀ q ∈ ps, InRanges g q ∨ ∃ i j : ℝ, grid2relloc g.grid2 (some q.x) (some q.y) = .ok (i, j) ∧ (i < 1 ∨ (g.nxi : ℝ) < i ∨ j < 1 ∨ (g.nyi : ℝ) < j)
      · rw [if_pos h3, if_pos (hcons.2 ⟨h2, h3⟩)]
      · rw [if_neg h3, if_neg (fun h => h3 (hcons.1 h).2)]
    · rw [if_neg h2, if_neg (fun h => h2 (hcons.1 h).1)]

/-- **C144**: a shape that does not suit is refused, even without positions -/
theorem C144_shapes (g : Lin4) (h : (g.xxi.ny ≠ 1 ∧ (g.nxi ≠ g.yyi.nx ∨ g.nyi ≠ g.xxi.ny)) ∨ (g.nxiz ≠ 1 ∧ g.nxiz ≠ g.nxi) ∨ (g.nyiz ≠ 1 ∧ g.nyiz ≠ g.nyi) ∨ (g.ntiz ≠ 1 ∧ g.ntiz ≠ g.nti))
    (pts : List Pos4) : linear4dto1dxx g pts = .raised := by
  unfold linear4dto1dxx
  split
  · rfl
  · rw [if_neg]
    unfold Lin4.asserts Lin4.curved
    simp only [Bool.and_eq_true, Bool.or_eq_true, decide_eq_true_eq, Bool.not_eq_true', decide_eq_false_iff_not, ne_eq, not_not]
    tauto

/-- the hypotheses are met -/
example : NotEmpty4 exLin4 ∧ InRanges exLin4 ⟨1/2, 1, 0, 0⟩ ∧ ¬ InRanges exLin4 ⟨2, 1/2, 0, 0⟩ := by
  refine ⟨by simp [NotEmpty4, exLin4], ⟨Or.inr ⟨by simp [exLin4], ⟨some 0, by simp [exLin4], 0, rfl, by norm_num⟩, 0, 1, by simp [exLin4], by simp [exLin4], by simp [exLin4]; norm_num⟩,
    Or.inr ⟨⟨0, 0, by simp [exLin4], by simp [exLin4], by simp [exLin4]⟩, 1, 0, by simp [exLin4], by simp [exLin4], by simp [exLin4]⟩, Or.inl rfl, Or.inl rfl⟩, ?_⟩
  rintro ⟨h, -⟩
  rcases h with h | ⟨-, -, j, i, -, hi, h⟩
  · simp [exLin4] at h
  · have hi : i < 2 := hi
    have h : (2 : ℝ) ≤ (i : ℝ) := h
    have : (2 : ℕ) ≤ i := by exact_mod_cast h
    omega

end Xoa
