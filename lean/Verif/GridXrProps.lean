import Verif.GridXr
import Verif.GridProps

/-! # Labels of the edges of cells (C177) -/

namespace Xoa

theorem axisIndex_nat (n k : Nat) : axisIndex n (k : Int) = k := by
  unfold axisIndex
  rw [if_neg (by omega)]
  omega

theorem axisIndex_neg (n k : Nat) (h : k < n) : axisIndex n ((k : Int) - n) = k := by
  unfold axisIndex
  rw [if_pos (by omega)]
  omega

theorem edges1d_axis (dt : DType) (ndim : Nat) (i j : Int) (hi : -(ndim : Int) ≤ i ∧ i < ndim) (hj : -(ndim : Int) ≤ j ∧ j < ndim)
    (junk data : List ℚ) (hn : 2 ≤ data.length) (hl : junk.length = data.length + 1) :
    edges1d dt ndim i junk data = edges1d dt ndim j junk data := by
  obtain ⟨o1, a1, l1, b1⟩ := edges1d_spec dt ndim i junk data hi hn hl
  obtain ⟨o2, a2, l2, b2⟩ := edges1d_spec dt ndim j junk data hj hn hl
  rw [a1, a2]
  congr 1
  apply List.ext_getElem?
  intro k
  by_cases hk : k < data.length + 1
  · rw [b1 k hk, b2 k hk]
  · rw [List.getElem?_eq_none (by omega), List.getElem?_eq_none (by omega)]

theorem edgesNd_axis (dt : DType) (i j : Int) (junk da : NdArray)
    (hi : -(da.shape.length : Int) ≤ i ∧ i < da.shape.length) (hj : -(da.shape.length : Int) ≤ j ∧ j < da.shape.length)
    (h : axisIndex da.shape.length i = axisIndex da.shape.length j) : edgesNd dt i junk da = edgesNd dt j junk da := by
  unfold edgesNd
  dsimp only
  rw [h]
  by_cases h2 : 2 ≤ da.shape.getD (axisIndex da.shape.length j) 0
  · rw [if_pos ⟨hi.1, hi.2, h2⟩, if_pos ⟨hj.1, hj.2, h2⟩]
    congr 2
    funext idx
    have hlt : axisIndex da.shape.length j < da.shape.length := by
      unfold axisIndex; split <;> omega
    rw [edges1d_axis dt da.shape.length i j hi hj _ _ (by simpa [NdArray.column] using h2)
      (by simp [NdArray.column, List.getD_eq_getElem?_getD, hlt])]
  · rw [if_neg (fun c => h2 c.2.2), if_neg (fun c => h2 c.2.2)]

/-- the name of an array, when it has one that is not empty, is followed by the suffix -/
def NameSuffixed (suffix : Str) (name name' : Option Str) : Prop :=
  (∀ s, name = some s → s ≠ [] → name' = some (s ++ suffix)) ∧ (name = none ∨ name = some [] → name' = name)

theorem edgeName_spec (suffix : Str) (name : Option Str) : NameSuffixed suffix name (edgeName suffix name) := by
  constructor
  · rintro s rfl hs
    unfold edgeName
    simp [hs]
  · rintro (rfl | rfl) <;> rfl

theorem edgeDims_spec (suffix : Str) (axis : Int) (dims : List Str) (k : Nat) (d : Str) (hk : dims[k]? = some d)
    (ha : axisIndex dims.length axis = k) :
    (edgeDims suffix axis dims)[k]? = some (d ++ suffix) ∧ ∀ j, j ≠ k → (edgeDims suffix axis dims)[j]? = dims[j]? := by
  have hlt : k < dims.length := by
    by_contra hc
    rw [List.getElem?_eq_none (by omega)] at hk
    cases hk
  unfold edgeDims
  rw [ha]
  constructor
  · rw [List.getElem?_set_self hlt, List.getD_eq_getElem?_getD, hk]
    rfl
  · intro j hj
    rw [List.getElem?_set_ne (by omega)]

theorem edgesNd_some (dt : DType) (axis : Int) (junk da : NdArray)
    (hax : -(da.shape.length : Int) ≤ axis ∧ axis < da.shape.length) (hn : 2 ≤ da.shape.getD (axisIndex da.shape.length axis) 0) :
    ∃ r, edgesNd dt axis junk da = some r := by
  unfold edgesNd
  dsimp only
  rw [if_pos ⟨hax.1, hax.2, hn⟩]
  exact ⟨_, rfl⟩

/-- **C177** (axis by name): for an array whose dimensions have different names, the edges along the dimension `d` can be asked with its name, with its
position, or with its position from the end. The result is the same: a labelled array whose dimension `d` is followed by the suffix, whose
other dimensions are the same, whose name is followed by the suffix, and whose values are those that the plain array gives. -/
theorem C177_axis (dt : DType) (suffix : Str) (junk : NdArray) (a : NdArray) (dims : List Str) (name : Option Str) (hd : dims.Nodup)
    (hl : dims.length = a.shape.length) (k : Nat) (d : Str) (hk : dims[k]? = some d) (hn : 2 ≤ a.shape.getD k 0) :
    ∃ r : NdArray, ∃ dims' : List Str, ∃ name' : Option Str,
      getEdges1d dt (.dim d) suffix junk ⟨a, some (dims, name)⟩ = .ok ⟨r, some (dims', name')⟩ ∧
      getEdges1d dt (.pos k) suffix junk ⟨a, some (dims, name)⟩ = .ok ⟨r, some (dims', name')⟩ ∧
      getEdges1d dt (.pos ((k : Int) - dims.length)) suffix junk ⟨a, some (dims, name)⟩ = .ok ⟨r, some (dims', name')⟩ ∧
      getEdges1d dt (.pos k) suffix junk ⟨a, none⟩ = .ok ⟨r, none⟩ ∧
      dims'[k]? = some (d ++ suffix) ∧ (∀ j, j ≠ k → dims'[j]? = dims[j]?) ∧ NameSuffixed suffix name name' := by
  have hlt : k < dims.length := by
    by_contra hc
    rw [List.getElem?_eq_none (by omega)] at hk
    cases hk
  have hget : dims[k] = d := by
    rw [List.getElem?_eq_getElem hlt] at hk
    exact Option.some.inj hk
  have hmem : d ∈ dims := hget ▸ List.getElem_mem hlt
  have hidx : dims.idxOf d = k := by
    rw [← hget]
    exact hd.idxOf_getElem k hlt
  have hax : -(a.shape.length : Int) ≤ (k : Int) ∧ (k : Int) < a.shape.length := by omega
  have hax' : -(a.shape.length : Int) ≤ (k : Int) - dims.length ∧ (k : Int) - dims.length < a.shape.length := by omega
  obtain ⟨r, hr⟩ := edgesNd_some dt k junk a hax (by rw [axisIndex_nat]; exact hn)
  have hr' : edgesNd dt ((k : Int) - dims.length) junk a = some r := by
    rw [← hr]
    refine edgesNd_axis dt _ _ junk a hax' hax ?_
    rw [hl, axisIndex_neg _ _ (by omega), axisIndex_nat]
  have e1 : axisOf (.dim d) (some (dims, name)) = .ok (k : Int) := by
    show (if d ∈ dims then Except.ok (dims.idxOf d : Int) else .error EdgeErr.valueError) = _
    rw [if_pos hmem, hidx]
  have s1 := edgeDims_spec suffix k dims k d hk (axisIndex_nat _ _)
  have hsame : edgeDims suffix ((k : Int) - dims.length) dims = edgeDims suffix k dims := by
    unfold edgeDims
    rw [axisIndex_neg _ _ hlt, axisIndex_nat]
  refine ⟨r, edgeDims suffix k dims, edgeName suffix name, ?_, ?_, ?_, ?_, s1.1, s1.2, edgeName_spec suffix name⟩
  · unfold getEdges1d
    rw [e1]
    show (match edgesNd dt (k : Int) junk a with | none => _ | some r => _) = _
    rw [hr]
    rfl
  · unfold getEdges1d
    show (match edgesNd dt (k : Int) junk a with | none => _ | some r => _) = _
    rw [hr]
    rfl
  · unfold getEdges1d
    show (match edgesNd dt ((k : Int) - dims.length) junk a with | none => _ | some r => _) = _
    rw [hr']
    show Except.ok (GArr.mk r (some (edgeDims suffix ((k : Int) - dims.length) dims, _))) = _
    rw [hsame]
  · unfold getEdges1d
    show (match edgesNd dt (k : Int) junk a with | none => _ | some r => _) = _
    rw [hr]
    rfl

theorem nodup_opt {α : Type} (l : List α) : l.Nodup ↔ ∀ i j : Nat, i < j → j < l.length → l[i]? ≠ l[j]? := by
  unfold List.Nodup
  rw [List.pairwise_iff_getElem]
  constructor
  · intro h i j hij hj hc
    rw [List.getElem?_eq_getElem (by omega), List.getElem?_eq_getElem hj] at hc
    exact h i j (by omega) hj hij (Option.some.inj hc)
  · intro h i j hi hj hij hc
    refine h i j hij hj ?_
    rw [List.getElem?_eq_getElem hi, List.getElem?_eq_getElem hj, hc]

/-- **C177** (distinct names): the dimensions of the edges have different names too, unless another dimension already has the name of the new one. -/
theorem C177_distinct (dt : DType) (suffix : Str) (hs : suffix ≠ []) (axis : Int) (junk a : NdArray) (dims : List Str) (name : Option Str) (hd : dims.Nodup)
    (hl : dims.length = a.shape.length) (k : Nat) (d : Str) (hk : dims[k]? = some d) (ha : axisIndex dims.length axis = k)
    (r : NdArray) (dims' : List Str) (name' : Option Str)
    (h : getEdges1d dt (.pos axis) suffix junk ⟨a, some (dims, name)⟩ = .ok ⟨r, some (dims', name')⟩) :
    dims'.Nodup ↔ d ++ suffix ∉ dims := by
  have hd' : dims' = edgeDims suffix axis dims := by
    unfold getEdges1d at h
    dsimp only [axisOf] at h
    cases he : edgesNd dt axis junk a with
    | none => rw [he] at h; cases h
    | some x =>
      rw [he] at h
      have h2 := Except.ok.inj h
      injection h2 with _ h3
      have h4 := Option.some.inj h3
      exact (Prod.mk.inj h4).1.symm
  have hlt : k < dims.length := by
    by_contra hc
    rw [List.getElem?_eq_none (by omega)] at hk
    cases hk
  have s := edgeDims_spec suffix axis dims k d hk ha
  rw [← hd'] at s
  have hlen : dims'.length = dims.length := by rw [hd']; simp [edgeDims]
  have hne : d ++ suffix ≠ d := by simpa using hs
  constructor
  · intro hn hin
    obtain ⟨j, hj, hjd⟩ := List.getElem_of_mem hin
    have hjk : j ≠ k := by
      rintro rfl
      rw [List.getElem?_eq_getElem hlt, hjd] at hk
      exact hne (Option.some.inj hk)
    have hj2 : dims'[j]? = some (d ++ suffix) := by
      rw [s.2 j hjk, List.getElem?_eq_getElem hj, hjd]
    have hn' := (nodup_opt dims').1 hn
    rcases Nat.lt_or_gt_of_ne hjk with h1 | h1
    · exact hn' j k h1 (by omega) (hj2.trans s.1.symm)
    · exact hn' k j h1 (by omega) (s.1.trans hj2.symm)
  · intro hni
    rw [nodup_opt]
    intro i j hij hj hc
    rw [hlen] at hj
    have hij' : i < dims.length := by omega
    by_cases hik : i = k
    · subst hik
      rw [s.1, s.2 j (by omega)] at hc
      exact hni (List.mem_of_getElem? hc.symm)
    · by_cases hjk : j = k
      · subst hjk
        rw [s.1, s.2 i hik] at hc
        exact hni (List.mem_of_getElem? hc)
      · rw [s.2 i hik, s.2 j hjk] at hc
        exact (nodup_opt dims).1 hd i j hij hj hc

/-- **C177** (refusals): the name of a dimension that the array does not have is refused, as is any name for an array without names, an axis out of
range and a size less than two along the axis. -/
theorem C177_refused (dt : DType) (suffix : Str) (junk : NdArray) (da : GArr) :
    (∀ d, da.labels = none → getEdges1d dt (.dim d) suffix junk da = .error .xoaError) ∧
    (∀ d dims name, da.labels = some (dims, name) → d ∉ dims → getEdges1d dt (.dim d) suffix junk da = .error .valueError) ∧
    (∀ axis : Int, ¬ (-(da.arr.shape.length : Int) ≤ axis ∧ axis < da.arr.shape.length) →
      getEdges1d dt (.pos axis) suffix junk da = .error .indexError) ∧
    (∀ axis : Int, da.arr.shape.getD (axisIndex da.arr.shape.length axis) 0 < 2 → getEdges1d dt (.pos axis) suffix junk da = .error .indexError) := by
  refine ⟨?_, ?_, ?_, ?_⟩
  · intro d h
    unfold getEdges1d
    rw [h]
    rfl
  · intro d dims name h hd
    unfold getEdges1d
    rw [h]
    have : axisOf (.dim d) (some (dims, name)) = .error .valueError := by
      show (if d ∈ dims then Except.ok (dims.idxOf d : Int) else .error EdgeErr.valueError) = _
      rw [if_neg hd]
    rw [this]
  · intro axis h
    have : edgesNd dt axis junk da.arr = none := by
      unfold edgesNd
      dsimp only
      rw [if_neg (fun c => h ⟨c.1, c.2.1⟩)]
    unfold getEdges1d
    dsimp only [axisOf]
    rw [this]
  · intro axis h
    have : edgesNd dt axis junk da.arr = none := by
      unfold edgesNd
      dsimp only
      rw [if_neg (fun c => by omega)]
    unfold getEdges1d
    dsimp only [axisOf]
    rw [this]

/-- **C177** (two dimensions): the edges of a labelled floating point array of two dimensions have one more point along each of them, its name and the names of its
dimensions followed by the suffix, still different from each other; the interior values are the means of the four centers. -/
theorem C177_two_dims_partial (suffix : Str) (junk a : NdArray) (ny nx : Nat) (ha : a.shape = [ny, nx]) (hy : 2 ≤ ny) (hx : 2 ≤ nx) (d0 d1 : Str) (hd : d0 ≠ d1)
    (name : Option Str) : ∃ r : NdArray, ∃ name' : Option Str,
      getEdges2d .float suffix junk ⟨a, some ([d0, d1], name)⟩ = .ok ⟨r, some ([d0 ++ suffix, d1 ++ suffix], name')⟩ ∧
      r.shape = [ny + 1, nx + 1] ∧ d0 ++ suffix ≠ d1 ++ suffix ∧ NameSuffixed suffix name name' ∧
      ∀ j i, 1 ≤ j → j < ny → 1 ≤ i → i < nx →
        r.val [j, i] = (a.val [j - 1, i - 1] + a.val [j - 1, i] + a.val [j, i - 1] + a.val [j, i]) / 4 := by
  obtain ⟨e, he, hm⟩ := C16_inner ny nx (fun j i => junk.val [j, i]) (fun j i => a.val [j, i]) hy hx
  refine ⟨⟨[ny + 1, nx + 1], fun idx => e (idx.getD 0 0) (idx.getD 1 0)⟩, edgeName suffix name, ?_, rfl, ?_, edgeName_spec suffix name, ?_⟩
  · unfold getEdges2d edges2dSized
    dsimp only
    rw [ha]
    rw [if_neg (by simp)]
    show (match edges2d ny nx _ _ with | none => _ | some e => _) = _
    rw [he]
    rfl
  · intro h
    exact hd (List.append_cancel_right h)
  · intro j i h1 h2 h3 h4
    exact hm j i h1 h2 h3 h4

/-- **C177** (two dimensions): an array with another number of dimensions is refused, as is one with less than two points along a dimension. -/
theorem C177_two_dims_refused (dt : DType) (suffix : Str) (junk : NdArray) (da : GArr) :
    (da.arr.shape.length ≠ 2 → getEdges2d dt suffix junk da = .error .valueError) ∧
    ∀ ny nx, da.arr.shape = [ny, nx] → ny < 2 ∨ nx < 2 → getEdges2d dt suffix junk da = .error .indexError := by
  constructor
  · intro h
    unfold getEdges2d
    rw [if_pos h]
  · intro ny nx h hlt
    unfold getEdges2d edges2dSized
    rw [h, if_neg (by simp)]
    show (match edges2d ny nx _ _ with | none => _ | some e => _) = _
    rw [C16_too_small ny nx _ _ hlt]

/-- **C177 is violated** for plain arrays, that the documentation of `get_edges_2d` accepts: it always raises an AttributeError, after the computation. -/
theorem C177_plain_violated (suffix : Str) (junk a : NdArray) (ny nx : Nat) (ha : a.shape = [ny, nx]) (hy : 2 ≤ ny) (hx : 2 ≤ nx) :
    getEdges2d .float suffix junk ⟨a, none⟩ = .error .attributeError := by
  obtain ⟨e, he, -⟩ := C16_inner ny nx (fun j i => junk.val [j, i]) (fun j i => a.val [j, i]) hy hx
  unfold getEdges2d edges2dSized
  dsimp only
  rw [ha]
  rw [if_neg (by simp)]
  show (match edges2d ny nx _ _ with | none => _ | some e => _) = _
  rw [he]
  rfl

/-- **C177 is violated** for arrays of integers of two dimensions: their edges always raise a TypeError. -/
theorem C177_integer_violated (suffix : Str) (junk : NdArray) (da : GArr) (ny nx : Nat) (ha : da.arr.shape = [ny, nx]) (hy : 2 ≤ ny) (hx : 2 ≤ nx) :
    getEdges2d .int suffix junk da = .error .typeError := by
  obtain ⟨e, he, -⟩ := C16_inner ny nx (fun j i => junk.val [j, i]) (fun j i => da.arr.val [j, i]) hy hx
  unfold getEdges2d edges2dSized
  rw [ha]
  rw [if_neg (by simp)]
  show (match edges2d ny nx _ _ with | none => _ | some e => _) = _
  rw [he]
  rfl

/-- a case of `C177_axis` and `C177_distinct`: an array `lon(y, x)` along `x`, that has no dimension `x_edges` -/
example : (["y".toList, "x".toList] : List Str).Nodup ∧ (["y".toList, "x".toList] : List Str)[1]? = some "x".toList ∧
    (2 : Nat) ≤ ([3, 4] : List Nat).getD 1 0 ∧ axisIndex 2 (-1) = 1 ∧ "x".toList ++ "_edges".toList ∉ (["y".toList, "x".toList] : List Str) := by
  decide

/-- and one for which the names of the edges are not different -/
example : "x".toList ++ "_edges".toList ∈ (["x".toList, "x_edges".toList] : List Str) := by decide

end Xoa
