import Verif.GridProps

/-!
# C190: cell edges, units and direction

Exact arithmetic, centers stored as floating point numbers.
-/

namespace Xoa

/-- the edges from the centers -/
def edgeAt (d : Nat → ℚ) (n i : Nat) : ℚ :=
  if i = 0 then d 0 - (d 1 - d 0) / 2 else if i = n then d (n - 1) + (d (n - 1) - d (n - 2)) / 2 else (d (i - 1) + d i) / 2

theorem edges_at (ndim : Nat) (axis : Int) (junk data : List ℚ) (hax : -(ndim : Int) ≤ axis ∧ axis < ndim) (hn : 2 ≤ data.length) (hj : junk.length = data.length + 1) :
    edges1d .float ndim axis junk data = some ((List.range (data.length + 1)).map (edgeAt (ctr data) data.length)) := by
  obtain ⟨out, h, _⟩ := edges1d_spec .float ndim axis junk data hax hn hj
  obtain ⟨h1, h2, h3, h4⟩ := edges_float ndim axis junk data hax hn hj out h
  rw [h]
  congr 1
  apply List.ext_getElem?
  intro i
  by_cases hi : i < data.length + 1
  · rw [ctr_get out i (by omega), List.getElem?_map, List.getElem?_range hi]
    show some _ = some _
    congr 1
    unfold edgeAt
    by_cases h0 : i = 0
    · rw [if_pos h0, h0, h2]; ring
    · rw [if_neg h0]
      by_cases he : i = data.length
      · rw [if_pos he, he, h3]; ring
      · rw [if_neg he, h4 i (by omega) (by omega)]; ring
  · rw [List.getElem?_eq_none (by omega), List.getElem?_eq_none (by simp; omega)]

/-- the same with centers of any type -/
theorem edges_at_type (dt : DType) (ndim : Nat) (axis : Int) (junk data : List ℚ) (hax : -(ndim : Int) ≤ axis ∧ axis < ndim) (hn : 2 ≤ data.length) (hj : junk.length = data.length + 1) :
    edges1d dt ndim axis junk data = some ((List.range (data.length + 1)).map fun i => dt.store (edgeAt (ctr data) data.length i)) := by
  obtain ⟨out, h, h1, hg⟩ := edges1d_spec dt ndim axis junk data hax hn hj
  rw [h]
  congr 1
  apply List.ext_getElem?
  intro i
  by_cases hi : i < data.length + 1
  · rw [hg i hi, List.getElem?_map, List.getElem?_range hi]
    show some _ = some (dt.store (edgeAt (ctr data) data.length i))
    congr 1
    unfold edgeAt
    by_cases h0 : i = 0
    · rw [if_pos h0, if_pos h0]; congr 1; ring
    · rw [if_neg h0, if_neg h0]
      by_cases he : i = data.length
      · rw [if_pos he, if_pos he, he]; congr 1; ring
      · rw [if_neg he, if_neg he]; congr 1; ring
  · rw [List.getElem?_eq_none (by omega), List.getElem?_eq_none (by simp; omega)]

theorem edges_none' (dt : DType) (ndim : Nat) (axis : Int) (junk data : List ℚ) (h : ¬ ((-(ndim : Int) ≤ axis ∧ axis < ndim) ∧ 2 ≤ data.length)) :
    edges1d dt ndim axis junk data = none := by
  refine C15_too_small dt ndim axis junk data ?_
  by_cases hn : data.length < 2
  · exact Or.inl hn
  · exact Or.inr fun hc => h ⟨hc, by omega⟩

theorem edgeAt_congr (d d' : Nat → ℚ) (n i : Nat) (hn : 2 ≤ n) (hi : i ≤ n) (h : ∀ k, k < n → d k = d' k) : edgeAt d n i = edgeAt d' n i := by
  unfold edgeAt
  split
  · rw [h 0 (by omega), h 1 (by omega)]
  · split
    · rw [h (n - 1) (by omega), h (n - 2) (by omega)]
    · rw [h (i - 1) (by omega), h i (by omega)]

theorem ctr_map (f : ℚ → ℚ) (data : List ℚ) (i : Nat) (hi : i < data.length) : ctr (data.map f) i = f (ctr data i) := by
  unfold ctr
  rw [List.getD_eq_getElem?_getD, List.getElem?_map, ctr_get data i hi]
  rfl

/-- **C190 (units).** The edges of centers in other units (any factor, negative too, and any origin) are the edges of the centers in these units, or both are refused; whatever the memory. -/
theorem C190_units (s t : ℚ) (ndim : Nat) (axis : Int) (junk junk' data : List ℚ) (hj : junk.length = data.length + 1) (hj' : junk'.length = data.length + 1) :
    edges1d .float ndim axis junk' (data.map fun x => s * x + t) = (edges1d .float ndim axis junk data).map fun out => out.map fun x => s * x + t := by
  by_cases h : (-(ndim : Int) ≤ axis ∧ axis < ndim) ∧ 2 ≤ data.length
  · rw [edges_at ndim axis junk data h.1 h.2 hj, edges_at ndim axis junk' _ h.1 (by simpa using h.2) (by simpa using hj')]
    simp only [List.length_map, Option.map_some, List.map_map, Option.some.injEq]
    refine List.map_congr_left fun i hi => ?_
    have hi' : i ≤ data.length := by have := List.mem_range.1 hi; omega
    rw [edgeAt_congr _ (fun k => s * ctr data k + t) _ i h.2 hi' (fun k hk => ctr_map _ data k hk)]
    show _ = s * edgeAt (ctr data) data.length i + t
    unfold edgeAt
    split
    · ring
    · split <;> ring
  · rw [edges_none' .float ndim axis junk data h, edges_none' .float ndim axis junk' _ (by simpa using h)]; rfl

/-- **C190 (superposition).** The edges of a weighted sum of two lists of centers are the weighted sum of their edges. -/
theorem C190_sum (a b : ℚ) (ndim : Nat) (axis : Int) (junk junk' junk'' data data' : List ℚ) (hl : data'.length = data.length)
    (hj : junk.length = data.length + 1) (hj' : junk'.length = data.length + 1) (hj'' : junk''.length = data.length + 1)
    (hax : -(ndim : Int) ≤ axis ∧ axis < ndim) (hn : 2 ≤ data.length) :
    ∃ e e', edges1d .float ndim axis junk data = some e ∧ edges1d .float ndim axis junk' data' = some e' ∧
      edges1d .float ndim axis junk'' (List.zipWith (fun x y => a * x + b * y) data data') = some (List.zipWith (fun x y => a * x + b * y) e e') := by
  have hz : (List.zipWith (fun x y => a * x + b * y) data data').length = data.length := by simp [hl]
  refine ⟨_, _, edges_at ndim axis junk data hax hn hj, edges_at ndim axis junk' data' hax (by omega) (by omega), ?_⟩
  rw [edges_at ndim axis junk'' _ hax (by omega) (by omega), hz, hl]
  congr 1
  rw [List.zipWith_map, List.zipWith_self]
  refine List.map_congr_left fun i hi => ?_
  have hi' : i ≤ data.length := by have := List.mem_range.1 hi; omega
  have hc : ∀ k, k < data.length → ctr (List.zipWith (fun x y => a * x + b * y) data data') k = a * ctr data k + b * ctr data' k := by
    intro k hk
    unfold ctr
    rw [List.getD_eq_getElem?_getD, List.getElem?_zipWith, ctr_get data k hk, ctr_get data' k (by omega)]
    rfl
  rw [edgeAt_congr _ (fun k => a * ctr data k + b * ctr data' k) _ i hn hi' hc]
  unfold edgeAt
  split
  · ring
  · split <;> ring

/-- **C190 (direction).** The edges of the reversed centers are the reversed edges, or both are refused; integer centers too. -/
theorem C190_reversed (dt : DType) (ndim : Nat) (axis : Int) (junk junk' data : List ℚ) (hj : junk.length = data.length + 1) (hj' : junk'.length = data.length + 1) :
    edges1d dt ndim axis junk' data.reverse = (edges1d dt ndim axis junk data).map List.reverse := by
  by_cases h : (-(ndim : Int) ≤ axis ∧ axis < ndim) ∧ 2 ≤ data.length
  · rw [edges_at_type dt ndim axis junk data h.1 h.2 hj, edges_at_type dt ndim axis junk' _ h.1 (by simpa using h.2) (by simpa using hj')]
    simp only [List.length_reverse, Option.map_some, Option.some.injEq]
    have hn := h.2
    apply List.ext_getElem
    · simp
    intro i h1 h2
    have hi : i ≤ data.length := by simp at h1; omega
    have hc : ∀ k, k < data.length → ctr data.reverse k = ctr data (data.length - 1 - k) := by
      intro k hk
      unfold ctr
      rw [List.getD_eq_getElem?_getD, List.getElem?_reverse hk, List.getD_eq_getElem?_getD]
    rw [List.getElem_map, List.getElem_range, List.getElem_reverse, List.getElem_map, List.getElem_range,
      edgeAt_congr _ (fun k => ctr data (data.length - 1 - k)) _ i hn hi hc]
    simp only [List.length_map, List.length_range]
    congr 1
    unfold edgeAt
    by_cases h0 : i = 0
    · subst h0
      rw [if_pos rfl, if_neg (by omega), if_pos (by omega)]
      simp only [show data.length - 1 - 0 = data.length - 1 by omega, show data.length - 1 - 1 = data.length - 2 by omega]
      ring
    · rw [if_neg h0]
      by_cases he : i = data.length
      · subst he
        rw [if_pos rfl, if_pos (by omega)]
        simp only [show data.length - 1 - (data.length - 1) = 0 by omega, show data.length - 1 - (data.length - 2) = 1 by omega]
        ring
      · rw [if_neg he, if_neg (by omega), if_neg (by omega)]
        simp only [show data.length + 1 - 1 - i - 1 = data.length - 1 - i by omega, show data.length - 1 - (i - 1) = data.length + 1 - 1 - i by omega]
        ring
  · rw [edges_none' dt ndim axis junk data h, edges_none' dt ndim axis junk' _ (by simpa using h)]; rfl

/-- **C190 (2-D, interior).** The interior corners of a 2-D grid in other units, transposed, or reversed along each direction are those of the original grid, in these units, transposed
or reversed, whatever the memory. (The borders depend on uninitialised memory: C74.) -/
theorem C190_2d_inner (s t : ℚ) (ny nx : Nat) (junk junk1 junk2 junk3 junk4 d : Nat → Nat → ℚ) (hy : 2 ≤ ny) (hx : 2 ≤ nx) :
    ∃ e eu et ex ey, edges2d ny nx junk d = some e ∧ edges2d ny nx junk1 (fun j i => s * d j i + t) = some eu ∧
      edges2d nx ny junk2 (fun i j => d j i) = some et ∧ edges2d ny nx junk3 (fun j i => d j (nx - 1 - i)) = some ex ∧
      edges2d ny nx junk4 (fun j i => d (ny - 1 - j) i) = some ey ∧
      ∀ j i, 1 ≤ j → j < ny → 1 ≤ i → i < nx →
        eu j i = s * e j i + t ∧ et i j = e j i ∧ ex j i = e j (nx - i) ∧ ey j i = e (ny - j) i := by
  obtain ⟨e, h0, k0⟩ := C16_inner ny nx junk d hy hx
  obtain ⟨eu, h1, k1⟩ := C16_inner ny nx junk1 (fun j i => s * d j i + t) hy hx
  obtain ⟨et, h2, k2⟩ := C16_inner nx ny junk2 (fun i j => d j i) hx hy
  obtain ⟨ex, h3, k3⟩ := C16_inner ny nx junk3 (fun j i => d j (nx - 1 - i)) hy hx
  obtain ⟨ey, h4, k4⟩ := C16_inner ny nx junk4 (fun j i => d (ny - 1 - j) i) hy hx
  refine ⟨e, eu, et, ex, ey, h0, h1, h2, h3, h4, ?_⟩
  intro j i j1 j2 i1 i2
  refine ⟨?_, ?_, ?_, ?_⟩
  · rw [k1 j i j1 j2 i1 i2, k0 j i j1 j2 i1 i2]; ring
  · rw [k2 i j i1 i2 j1 j2, k0 j i j1 j2 i1 i2]; ring
  · rw [k3 j i j1 j2 i1 i2, k0 j (nx - i) j1 j2 (by omega) (by omega)]
    simp only [show nx - 1 - (i - 1) = nx - i by omega, show nx - 1 - i = nx - i - 1 by omega]
    ring
  · rw [k4 j i j1 j2 i1 i2, k0 (ny - j) i (by omega) (by omega) i1 i2]
    simp only [show ny - 1 - (j - 1) = ny - j by omega, show ny - 1 - j = ny - j - 1 by omega]
    ring

/-! ## arrays -/

/-- **C190 (arrays).** `get_edges_1d` along an axis of an array of any dimension: units. -/
theorem C190_array_units (s t : ℚ) (axis : Int) (junk da out : NdArray) (h : edgesNd .float axis junk da = some out) :
    ∃ out', edgesNd .float axis junk ⟨da.shape, fun idx => s * da.val idx + t⟩ = some out' ∧ out'.shape = out.shape ∧
      ∀ idx : List Nat, idx.length = da.shape.length → idx.getD (axisIndex da.shape.length axis) 0 ≤ da.shape.getD (axisIndex da.shape.length axis) 0 →
        out'.val idx = s * out.val idx + t := by
  unfold edgesNd at h ⊢
  dsimp only at h ⊢
  by_cases hc : -(da.shape.length : Int) ≤ axis ∧ axis < da.shape.length ∧ 2 ≤ da.shape.getD (axisIndex da.shape.length axis) 0
  · rw [if_pos hc] at h ⊢
    cases h
    refine ⟨_, rfl, rfl, ?_⟩
    intro idx hl hi
    have hax : axisIndex da.shape.length axis < da.shape.length := by
      by_contra hn
      have : da.shape.getD (axisIndex da.shape.length axis) 0 = 0 := by
        rw [List.getD_eq_getElem?_getD, List.getElem?_eq_none (by omega)]; rfl
      omega
    have hlen : (da.column (axisIndex da.shape.length axis) idx).length = da.shape.getD (axisIndex da.shape.length axis) 0 := by
      unfold NdArray.column; simp
    have hjl : (({ junk with shape := da.shape.set (axisIndex da.shape.length axis) (da.shape.getD (axisIndex da.shape.length axis) 0 + 1) } : NdArray).column
        (axisIndex da.shape.length axis) idx).length = (da.column (axisIndex da.shape.length axis) idx).length + 1 := by
      rw [hlen]
      unfold NdArray.column
      simp only [List.length_map, List.length_range]
      rw [List.getD_eq_getElem?_getD, List.getElem?_set_self hax]
      rfl
    have hcol : (⟨da.shape, fun idx => s * da.val idx + t⟩ : NdArray).column (axisIndex da.shape.length axis) idx =
        (da.column (axisIndex da.shape.length axis) idx).map fun x => s * x + t := by
      unfold NdArray.column; rw [List.map_map]; rfl
    dsimp only
    rw [hcol, C190_units s t da.shape.length axis _ _ _ hjl hjl, edges_at da.shape.length axis _ _ ⟨hc.1, hc.2.1⟩ (by rw [hlen]; exact hc.2.2) hjl]
    simp only [Option.map_some, Option.getD_some]
    rw [hlen]
    generalize idx.getD (axisIndex da.shape.length axis) 0 = i at hi ⊢
    simp only [List.map_map, List.getD_eq_getElem?_getD (l := List.map _ _), List.getElem?_map]
    rw [List.getElem?_range (by omega)]
    rfl
  · rw [if_neg hc] at h; cases h

/-! ## concrete cases -/

example : edges1d .float 1 0 [9, 9, 9, 9] [0, 1, 3] = some [-1 / 2, 1 / 2, 2, 4] := by decide +kernel
example : edges1d .float 1 0 [7, 7, 7, 7] ([0, 1, 3].map fun x => -2 * x + 10) = (edges1d .float 1 0 [9, 9, 9, 9] [0, 1, 3]).map fun out => out.map fun x => -2 * x + 10 :=
  C190_units (-2) 10 1 0 _ _ [0, 1, 3] rfl rfl
example : edges1d .float 1 0 [9, 9, 9, 9] [3, 1, 0] = some [4, 2, 1 / 2, -1 / 2] := by
  have := C190_reversed .float 1 0 [9, 9, 9, 9] [9, 9, 9, 9] [0, 1, 3] rfl rfl
  rw [show edges1d .float 1 0 [9, 9, 9, 9] [0, 1, 3] = some [-1 / 2, 1 / 2, 2, 4] by decide +kernel] at this
  exact this

end Xoa
