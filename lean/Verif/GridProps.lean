import Verif.Grid
import Mathlib.Algebra.Ring.Int.Parity

/-! # Edges of cells (C15, C16) -/

namespace Xoa

theorem scatter_range (s : Nat) (vals e : List ℚ) (h : s + vals.length ≤ e.length) :
    (scatter e (List.range' s vals.length) vals).length = e.length ∧
    ∀ i, (scatter e (List.range' s vals.length) vals)[i]? =
      if s ≤ i ∧ i < s + vals.length then vals[i - s]? else e[i]? := by
  induction vals generalizing s e with
  | nil =>
    refine ⟨rfl, fun i => ?_⟩
    rw [if_neg (by simp)]
    rfl
  | cons v vals ih =>
    simp only [List.length_cons] at h
    have hs : scatter e (List.range' s (v :: vals).length) (v :: vals) =
        scatter (e.set s v) (List.range' (s + 1) vals.length) vals := by
      simp [scatter, List.range'_succ]
    rw [hs]
    obtain ⟨h1, h2⟩ := ih (s + 1) (e.set s v) (by simp; omega)
    refine ⟨by rw [h1]; simp, fun i => ?_⟩
    rw [h2 i]
    simp only [List.length_cons]
    by_cases hi : i = s
    · subst hi
      rw [if_neg (by omega), if_pos (by omega), List.getElem?_set_self (by omega), Nat.sub_self]
      rfl
    · by_cases hc : s + 1 ≤ i ∧ i < s + 1 + vals.length
      · rw [if_pos hc, if_pos (by omega)]
        have : i - s = (i - (s + 1)) + 1 := by omega
        rw [this, List.getElem?_cons_succ]
      · rw [if_neg hc, if_neg (by omega), List.getElem?_set_ne (by omega)]

theorem gather_range' (data : List ℚ) (s k : Nat) (h : s + k ≤ data.length) :
    gather data (List.range' s k) = (data.drop s).take k := by
  induction k generalizing s with
  | zero => simp [gather]
  | succ k ih =>
    have hs : s < data.length := by omega
    rw [List.range'_succ]
    unfold gather at *
    rw [List.filterMap_cons, List.getElem?_eq_getElem hs]
    simp only
    rw [ih (s + 1) (by omega), List.drop_eq_getElem_cons hs, List.take_succ_cons]

/-- the coordinate `i` of a list of centers -/
def ctr (data : List ℚ) (i : Nat) : ℚ := data.getD i 0

theorem ctr_get (data : List ℚ) (i : Nat) (h : i < data.length) : data[i]? = some (ctr data i) := by
  unfold ctr
  rw [List.getD_eq_getElem?_getD, List.getElem?_eq_getElem h]
  rfl

/-- closed form of the edges -/
theorem edges1d_spec (dt : DType) (ndim : Nat) (axis : Int) (junk data : List ℚ)
    (hax : -(ndim : Int) ≤ axis ∧ axis < ndim) (hn : 2 ≤ data.length) (hj : junk.length = data.length + 1) :
    ∃ out, edges1d dt ndim axis junk data = some out ∧ out.length = data.length + 1 ∧
      ∀ i, i < data.length + 1 → out[i]? = some (dt.store (
        if i = 0 then ctr data 0 - (ctr data 1 - ctr data 0) * (1 / 2)
        else if i = data.length then ctr data (i - 1) - (ctr data (i - 2) - ctr data (i - 1)) * (1 / 2)
        else 1 / 2 * (ctr data (i - 1) + ctr data i))) := by
  obtain ⟨-, -, p1, p2, -, -, p3, p4, p5, -, p6, -⟩ := axisPositions_axis ndim axis data.length hax
  obtain ⟨-, q1, -, -, -, -, q2, q3, -, -, -, -⟩ := axisPositions_axis ndim axis (data.length + 1) hax
  have g1 : ∀ i, i < data.length → gather data [i] = [ctr data i] := by
    intro i hi
    simp [gather, ctr_get data i hi]
  unfold edges1d colPos
  simp only [p1, p2, p3, p4, p5, p6, q1, q2, q3, if_pos (show 1 ≤ data.length by omega), if_pos hn,
    if_pos (show 1 ≤ data.length + 1 by omega), Option.map_some, Option.bind_eq_bind, Option.bind_some, pure]
  rw [g1 0 (by omega), g1 1 (by omega), g1 (data.length - 1) (by omega), g1 (data.length - 2) (by omega)]
  simp only [List.zipWith_cons_cons, List.zipWith_nil_left]
  have hr : List.range (data.length - 1) = List.range' 0 (data.length - 1) := by rw [List.range_eq_range']
  rw [hr, gather_range' data 0 (data.length - 1) (by omega), gather_range' data 1 (data.length - 1) (by omega)]
  generalize hm : List.zipWith (fun a b => dt.store (1 / 2 * (a + b))) (List.take (data.length - 1) (List.drop 0 data))
    (List.take (data.length - 1) (List.drop 1 data)) = mid
  have hml : mid.length = data.length - 1 := by rw [← hm]; simp
  have hmg : ∀ k, k < data.length - 1 → mid[k]? = some (dt.store (1 / 2 * (ctr data k + ctr data (k + 1)))) := by
    intro k hk
    rw [← hm, List.getElem?_zipWith, List.getElem?_take_of_lt hk, List.getElem?_take_of_lt hk, List.drop_zero,
      List.getElem?_drop, Nat.add_comm 1 k, ctr_get data k (by omega), ctr_get data (k + 1) (by omega)]
  -- the three assignments
  have hone : ∀ (e : List ℚ) (s : Nat) (v : ℚ), scatter e [s] [v] = e.set s v := fun e s v => rfl
  rw [hone, hone]
  have hq : data.length + 1 - 2 = mid.length := by omega
  rw [hq]
  obtain ⟨l1, l2⟩ := scatter_range 1 mid (junk.set 0 (dt.store (ctr data 0 - (ctr data 1 - ctr data 0) * (1 / 2)))) (by simp; omega)
  refine ⟨_, rfl, by rw [List.length_set, l1, List.length_set, hj], ?_⟩
  intro i hi
  by_cases hlast : i = data.length
  · subst hlast
    rw [if_neg (by omega), if_pos rfl, Nat.add_sub_cancel, List.getElem?_set_self (by rw [l1, List.length_set, hj]; omega)]
  · rw [List.getElem?_set_ne (by omega), l2]
    by_cases h0 : i = 0
    · subst h0
      rw [if_neg (by omega), if_pos rfl, List.getElem?_set_self (by omega)]
    · rw [if_pos (by omega), if_neg h0, if_neg hlast, hmg (i - 1) (by omega), show i - 1 + 1 = i from by omega]

/-! ## C15 -/

/-- edges of floating point centers along an axis, `e 0 ... e n` -/
theorem edges_float (ndim : Nat) (axis : Int) (junk data : List ℚ)
    (hax : -(ndim : Int) ≤ axis ∧ axis < ndim) (hn : 2 ≤ data.length) (hj : junk.length = data.length + 1)
    (out : List ℚ) (h : edges1d .float ndim axis junk data = some out) :
    out.length = data.length + 1 ∧
    ctr out 0 = ctr data 0 - (ctr data 1 - ctr data 0) * (1 / 2) ∧
    ctr out data.length = ctr data (data.length - 1) + (ctr data (data.length - 1) - ctr data (data.length - 2)) * (1 / 2) ∧
    ∀ i, 1 ≤ i → i < data.length → ctr out i = 1 / 2 * (ctr data (i - 1) + ctr data i) := by
  obtain ⟨out', h', hl, hg⟩ := edges1d_spec .float ndim axis junk data hax hn hj
  rw [h'] at h
  injection h with h
  subst h
  have key : ∀ i, i < data.length + 1 → ctr out' i =
      if i = 0 then ctr data 0 - (ctr data 1 - ctr data 0) * (1 / 2)
        else if i = data.length then ctr data (i - 1) - (ctr data (i - 2) - ctr data (i - 1)) * (1 / 2)
        else 1 / 2 * (ctr data (i - 1) + ctr data i) := by
    intro i hi
    unfold ctr at *
    rw [List.getD_eq_getElem?_getD, hg i hi]
    rfl
  refine ⟨hl, ?_, ?_, ?_⟩
  · rw [key 0 (by omega), if_pos rfl]
  · rw [key data.length (by omega), if_neg (by omega), if_pos rfl]; ring
  · intro i h1 h2
    rw [key i (by omega), if_neg (by omega), if_neg (by omega)]

/-- **C15**: `n ≥ 2` centers give `n+1` edges; the interior ones are the midpoints, and the ends
extend the first and last cells symmetrically. The result does not depend on the uninitialised
memory (`junk`), the number of dimensions and the way the axis is given. -/
theorem C15_edges (ndim : Nat) (axis : Int) (junk data : List ℚ)
    (hax : -(ndim : Int) ≤ axis ∧ axis < ndim) (hn : 2 ≤ data.length) (hj : junk.length = data.length + 1) :
    ∃ out, edges1d .float ndim axis junk data = some out ∧ out.length = data.length + 1 ∧
      (∀ i, 1 ≤ i → i < data.length → ctr out i = (ctr data (i - 1) + ctr data i) / 2) ∧
      ctr data 0 = (ctr out 0 + ctr out 1) / 2 ∧
      ctr data (data.length - 1) = (ctr out (data.length - 1) + ctr out data.length) / 2 := by
  obtain ⟨out, h, _⟩ := edges1d_spec .float ndim axis junk data hax hn hj
  obtain ⟨h1, h2, h3, h4⟩ := edges_float ndim axis junk data hax hn hj out h
  refine ⟨out, h, h1, ?_, ?_, ?_⟩
  · intro i a b; rw [h4 i a b]; ring
  · rw [h2, h4 1 (by omega) (by omega)]; ring
  · rw [h3, h4 (data.length - 1) (by omega) (by omega), show data.length - 1 - 1 = data.length - 2 from by omega]; ring

/-- **C15**: strictly increasing centers give strictly increasing edges that strictly enclose each
center in its cell -/
theorem C15_enclose (ndim : Nat) (axis : Int) (junk data out : List ℚ)
    (hax : -(ndim : Int) ≤ axis ∧ axis < ndim) (hn : 2 ≤ data.length) (hj : junk.length = data.length + 1)
    (hinc : ∀ i, i + 1 < data.length → ctr data i < ctr data (i + 1))
    (h : edges1d .float ndim axis junk data = some out) :
    (∀ i, i < data.length → ctr out i < ctr data i ∧ ctr data i < ctr out (i + 1)) ∧
    (∀ i, i < data.length → ctr out i < ctr out (i + 1)) := by
  obtain ⟨h1, h2, h3, h4⟩ := edges_float ndim axis junk data hax hn hj out h
  have key : ∀ i, i < data.length → ctr out i < ctr data i ∧ ctr data i < ctr out (i + 1) := by
    intro i hi
    constructor
    · by_cases h0 : i = 0
      · subst h0
        rw [h2]
        have := hinc 0 (by omega)
        rw [Nat.zero_add] at this
        linarith
      · rw [h4 i (by omega) hi]
        have := hinc (i - 1) (by omega)
        rw [show i - 1 + 1 = i from by omega] at this
        linarith
    · by_cases hl : i + 1 = data.length
      · rw [hl, h3]
        have := hinc (data.length - 2) (by omega)
        rw [show data.length - 2 + 1 = data.length - 1 from by omega] at this
        have e : i = data.length - 1 := by omega
        rw [e]
        linarith
      · rw [h4 (i + 1) (by omega) (by omega), Nat.add_sub_cancel]
        have := hinc i (by omega)
        linarith
  exact ⟨key, fun i hi => lt_trans (key i hi).1 (key i hi).2⟩

/-- **C15**: a regular grid gives a regular grid of edges, shifted by half a step -/
theorem C15_regular (ndim : Nat) (axis : Int) (junk data out : List ℚ)
    (hax : -(ndim : Int) ≤ axis ∧ axis < ndim) (hn : 2 ≤ data.length) (hj : junk.length = data.length + 1)
    (a d : ℚ) (hreg : ∀ i : Nat, i < data.length → ctr data i = a + i * d)
    (h : edges1d .float ndim axis junk data = some out) :
    ∀ i : Nat, i ≤ data.length → ctr out i = a - d / 2 + i * d := by
  obtain ⟨h1, h2, h3, h4⟩ := edges_float ndim axis junk data hax hn hj out h
  intro i hi
  by_cases h0 : i = 0
  · subst h0
    rw [h2, hreg 0 (by omega), hreg 1 (by omega)]
    push_cast; ring
  · by_cases hl : i = data.length
    · subst hl
      rw [h3, hreg _ (by omega), hreg _ (by omega)]
      have e1 : ((data.length - 1 : Nat) : ℚ) = (data.length : ℚ) - 1 := by
        rw [Nat.cast_sub (by omega)]; simp
      have e2 : ((data.length - 2 : Nat) : ℚ) = (data.length : ℚ) - 2 := by
        rw [Nat.cast_sub (by omega)]; simp
      rw [e1, e2]; ring
    · rw [h4 i (by omega) (by omega), hreg _ (by omega), hreg _ (by omega)]
      have e1 : ((i - 1 : Nat) : ℚ) = (i : ℚ) - 1 := by
        rw [Nat.cast_sub (by omega)]; simp
      rw [e1]; ring

/-- **C15**: shifting the centers shifts the edges -/
theorem C15_shift (ndim : Nat) (axis : Int) (junk data out out' : List ℚ)
    (hax : -(ndim : Int) ≤ axis ∧ axis < ndim) (hn : 2 ≤ data.length) (hj : junk.length = data.length + 1) (c : ℚ)
    (h : edges1d .float ndim axis junk data = some out)
    (h' : edges1d .float ndim axis junk (data.map (· + c)) = some out') : out' = out.map (· + c) := by
  have hm : ∀ i, i < data.length → ctr (data.map (· + c)) i = ctr data i + c := by
    intro i hi
    unfold ctr
    rw [List.getD_eq_getElem?_getD, List.getElem?_map, ctr_get data i hi]
    simp [ctr]
  have hl : (data.map (· + c)).length = data.length := by simp
  obtain ⟨h1, h2, h3, h4⟩ := edges_float ndim axis junk data hax hn hj out h
  obtain ⟨k1, k2, k3, k4⟩ := edges_float ndim axis junk (data.map (· + c)) hax (by rw [hl]; exact hn) (by rw [hl]; exact hj) out' h'
  rw [hl] at k1 k3 k4
  apply List.ext_getElem?
  intro i
  rw [List.getElem?_map]
  by_cases hi : i < data.length + 1
  · rw [ctr_get out i (by omega), ctr_get out' i (by omega)]
    congr 1
    by_cases h0 : i = 0
    · subst h0
      rw [h2, k2, hm 0 (by omega), hm 1 (by omega)]; ring
    · by_cases he : i = data.length
      · subst he
        rw [h3, k3, hm _ (by omega), hm _ (by omega)]; ring
      · rw [h4 i (by omega) (by omega), k4 i (by omega) (by omega), hm _ (by omega), hm _ (by omega)]; ring
  · rw [List.getElem?_eq_none (by omega), List.getElem?_eq_none (by omega)]
    rfl

/-- **C15**: along an axis of an array of any dimension: one more point along the axis, the same
size along the others, and each column is computed from its own column -/
theorem C15_along_axis (axis : Int) (junk da : NdArray)
    (hax : -(da.shape.length : Int) ≤ axis ∧ axis < da.shape.length)
    (hn : 2 ≤ da.shape.getD (axisIndex da.shape.length axis) 0) :
    ∃ out, edgesNd .float axis junk da = some out ∧
      (∀ k, out.shape[k]? = if k = axisIndex da.shape.length axis then (da.shape[k]?).map (· + 1) else da.shape[k]?) ∧
      ∀ idx : List Nat, idx.length = da.shape.length →
        ∀ i : Nat, 1 ≤ i → i < da.shape.getD (axisIndex da.shape.length axis) 0 →
          out.val (idx.set (axisIndex da.shape.length axis) i) =
            (da.val (idx.set (axisIndex da.shape.length axis) (i - 1)) + da.val (idx.set (axisIndex da.shape.length axis) i)) / 2 := by
  have hi : axisIndex da.shape.length axis < da.shape.length := by unfold axisIndex; split <;> omega
  generalize hA : axisIndex da.shape.length axis = A at *
  unfold edgesNd
  simp only [hA]
  rw [if_pos ⟨hax.1, hax.2, hn⟩]
  refine ⟨_, rfl, ?_, ?_⟩
  · intro k
    rw [List.getElem?_set]
    by_cases hk : A = k
    · subst hk
      rw [if_pos rfl, if_pos hi, if_pos rfl, List.getElem?_eq_getElem hi, List.getD_eq_getElem?_getD, List.getElem?_eq_getElem hi]
      rfl
    · rw [if_neg hk, if_neg (fun e => hk e.symm)]
  · intro idx hidx i h1 h2
    have hcl : (da.column A (idx.set A i)).length = da.shape.getD A 0 := by simp [NdArray.column]
    have hjl : (NdArray.column { junk with shape := da.shape.set A (da.shape.getD A 0 + 1) } A (idx.set A i)).length =
        (da.column A (idx.set A i)).length + 1 := by
      rw [hcl]
      simp [NdArray.column, hi]
    obtain ⟨out, ho, hl, hg⟩ := edges1d_spec .float da.shape.length axis
      (NdArray.column { junk with shape := da.shape.set A (da.shape.getD A 0 + 1) } A (idx.set A i))
      (da.column A (idx.set A i)) hax (by rw [hcl]; exact hn) hjl
    obtain ⟨f1, f2, f3, f4⟩ := edges_float _ _ _ _ hax (by rw [hcl]; exact hn) hjl out ho
    have hget : (idx.set A i).getD A 0 = i := by
      rw [List.getD_eq_getElem?_getD, List.getElem?_set_self (by omega)]; rfl
    simp only [ho, Option.getD_some, hget]
    have e1 : out.getD i 0 = ctr out i := rfl
    rw [e1, f4 i h1 (by rw [hcl]; exact h2)]
    have hc : ∀ k, k < da.shape.getD A 0 → ctr (da.column A (idx.set A i)) k = da.val (idx.set A k) := by
      intro k hk
      unfold ctr NdArray.column
      rw [List.getD_eq_getElem?_getD, List.getElem?_map, List.getElem?_range hk]
      simp
    rw [hc _ (by omega), hc _ h2]
    ring

/-- **C15**: less than two centers along the axis, or an axis out of range, is an error -/
theorem C15_too_small (dt : DType) (ndim : Nat) (axis : Int) (junk data : List ℚ)
    (h : data.length < 2 ∨ ¬ (-(ndim : Int) ≤ axis ∧ axis < ndim)) :
    edges1d dt ndim axis junk data = none := by
  by_cases hax : -(ndim : Int) ≤ axis ∧ axis < ndim
  · have h : data.length < 2 := by tauto
    obtain ⟨-, -, -, -, -, -, -, p4, -, -, p6, -⟩ := axisPositions_axis ndim axis data.length hax
    unfold edges1d colPos
    simp only [p4, p6, if_neg (show ¬ 2 ≤ data.length by omega), Option.map_none, Option.bind_eq_bind, Option.bind_none]
    by_cases h1 : 1 ≤ data.length <;> simp [h1]
  · have hnone : axisSlices ndim axis "first" = none := by
      have := C54_axis_valid ndim axis "first" (by decide)
      cases hs : axisSlices ndim axis "first" with
      | none => rfl
      | some l => rw [hs] at this; exact absurd (this.mp rfl) hax
    unfold edges1d colPos axisPositions
    simp [hnone]

example : edges1d .float 3 (-2) [7, 7, 7, 7] [0, 2, 4] = some [-1, 1, 3, 5] := by decide +kernel

theorem store_int_half (z : ℤ) : (DType.store .int ((z : ℚ) / 2) = (z : ℚ) / 2 ↔ Even z) ∧ |DType.store .int ((z : ℚ) / 2) - (z : ℚ) / 2| ≤ 1 / 2 := by
  have hint : ∀ m : ℤ, DType.store .int (m : ℚ) = m := by
    intro m
    unfold DType.store
    dsimp only
    split
    · rw [Int.floor_intCast]
    · rw [Int.ceil_intCast]
  have hfl : ∀ m : ℤ, ⌊((2 * m + 1 : ℤ) : ℚ) / 2⌋ = m := by
    intro m
    rw [Int.floor_eq_iff]
    push_cast
    constructor <;> linarith
  have hce : ∀ m : ℤ, ⌈((2 * m + 1 : ℤ) : ℚ) / 2⌉ = m + 1 := by
    intro m
    rw [Int.ceil_eq_iff]
    push_cast
    constructor <;> linarith
  rcases Int.even_or_odd z with h | h
  · obtain ⟨m, rfl⟩ := h
    have e : ((m + m : ℤ) : ℚ) / 2 = m := by push_cast; ring
    rw [e, hint]
    simp
  · have hne : ¬ Even z := Int.not_even_iff_odd.2 h
    obtain ⟨m, rfl⟩ := h
    unfold DType.store
    dsimp only
    rw [hfl, hce]
    split
    · refine ⟨⟨fun he => absurd ?_ (one_ne_zero (α := ℚ)), fun he => absurd he hne⟩, ?_⟩
      · push_cast at he; linarith
      · rw [abs_le]; push_cast; constructor <;> linarith
    · refine ⟨⟨fun he => absurd ?_ (one_ne_zero (α := ℚ)), fun he => absurd he hne⟩, ?_⟩
      · push_cast at he; linarith
      · rw [abs_le]; push_cast; constructor <;> linarith

/-- twice the edges of integer centers -/
theorem edges_int (ndim : Nat) (axis : Int) (junk : List ℚ) (data : List ℤ)
    (hax : -(ndim : Int) ≤ axis ∧ axis < ndim) (hn : 2 ≤ data.length) (hj : junk.length = data.length + 1) (dt : DType) :
    ∃ out, edges1d dt ndim axis junk (data.map (fun z : ℤ => (z : ℚ))) = some out ∧ out.length = data.length + 1 ∧
      ∀ i, i < data.length + 1 → out[i]? = some (dt.store (((
        if i = 0 then 3 * data.getD 0 0 - data.getD 1 0
        else if i = data.length then 3 * data.getD (i - 1) 0 - data.getD (i - 2) 0
        else data.getD (i - 1) 0 + data.getD i 0 : ℤ) : ℚ) / 2)) := by
  obtain ⟨out, h, hl, hg⟩ := edges1d_spec dt ndim axis junk (data.map (fun z : ℤ => (z : ℚ))) hax (by simpa using hn) (by simpa using hj)
  rw [List.length_map] at hl hg
  refine ⟨out, h, hl, ?_⟩
  have hc : ∀ i : Nat, ctr (data.map (fun z : ℤ => (z : ℚ))) i = (data.getD i 0 : ℤ) := by
    intro i
    unfold ctr
    rw [List.getD_eq_getElem?_getD, List.getD_eq_getElem?_getD, List.getElem?_map]
    cases data[i]? <;> simp
  intro i hi
  rw [hg i hi]
  congr 2
  split
  · rw [hc, hc]; push_cast; ring
  · split
    · rw [hc, hc]; push_cast; ring
    · rw [hc, hc]; push_cast; ring

/-- **C73**, exact condition: integer centers have the same edges as the same floating point centers if and only if
two neighbours always differ by an even number; else the edges are still within 1/2. -/
theorem C73_same_iff_partial (ndim : Nat) (axis : Int) (junk junk' : List ℚ) (data : List ℤ)
    (hax : -(ndim : Int) ≤ axis ∧ axis < ndim) (hn : 2 ≤ data.length) (hj : junk.length = data.length + 1) (hj' : junk'.length = data.length + 1) :
    ∃ oi of, edges1d .int ndim axis junk (data.map (fun z : ℤ => (z : ℚ))) = some oi ∧
      edges1d .float ndim axis junk' (data.map (fun z : ℤ => (z : ℚ))) = some of ∧
      (oi = of ↔ ∀ i, i + 1 < data.length → Even (data.getD (i + 1) 0 - data.getD i 0)) ∧
      oi.length = of.length ∧ ∀ i, i < of.length → |ctr oi i - ctr of i| ≤ 1 / 2 := by
  obtain ⟨oi, h1, l1, g1⟩ := edges_int ndim axis junk data hax hn hj .int
  obtain ⟨of, h2, l2, g2⟩ := edges_int ndim axis junk' data hax hn hj' .float
  refine ⟨oi, of, h1, h2, ?_, by rw [l1, l2], ?_⟩
  · constructor
    · intro he i hi
      have a1 := g1 (i + 1) (by omega)
      have a2 := g2 (i + 1) (by omega)
      rw [he, a2, if_neg (by omega), if_neg (by omega)] at a1
      injection a1 with a1
      have := (store_int_half (data.getD (i + 1 - 1) 0 + data.getD (i + 1) 0)).1.1 a1.symm
      rw [Nat.add_sub_cancel] at this
      rw [Int.even_sub]
      rw [Int.even_add] at this
      exact this.symm
    · intro hev
      apply List.ext_getElem?
      intro i
      by_cases hi : i < data.length + 1
      · rw [g1 i hi, g2 i hi]
        congr 1
        apply (store_int_half _).1.2
        split
        · have := hev 0 (by omega)
          rw [Nat.zero_add, Int.even_sub] at this
          rw [Int.even_sub, Int.even_mul, this]
          simp [show ¬ Even (3 : ℤ) from by decide]
        · split
          · have := hev (i - 2) (by omega)
            rw [show i - 2 + 1 = i - 1 from by omega, Int.even_sub] at this
            rw [Int.even_sub, Int.even_mul, this]
            simp [show ¬ Even (3 : ℤ) from by decide]
          · have := hev (i - 1) (by omega)
            rw [show i - 1 + 1 = i from by omega, Int.even_sub] at this
            rw [Int.even_add, this]
      · rw [List.getElem?_eq_none (by omega), List.getElem?_eq_none (by omega)]
  · intro i hi
    unfold ctr
    rw [List.getD_eq_getElem?_getD, List.getD_eq_getElem?_getD, g1 i (by omega), g2 i (by omega)]
    exact (store_int_half _).2

example : edges1d .int 1 0 [0, 0, 0, 0] [0, 2, 6] = edges1d .float 1 0 [0, 0, 0, 0] [0, 2, 6] := by decide +kernel

/-- **C73 is violated** for integer coordinates: the edges are truncated and cells may be empty, or
their edges be centers -/
theorem C73_integer_violated : edges1d .int 1 0 [0, 0, 0, 0] [0, 1, 2] = some [0, 0, 1, 2] := by decide +kernel

/-! ## C16 -/

theorem row_getD (f : Nat → ℚ) (n i : Nat) (h : i < n) : ctr ((List.range n).map f) i = f i := by
  unfold ctr
  rw [List.getD_eq_getElem?_getD, List.getElem?_map, List.getElem?_range h]
  rfl

/-- edges of a row given by a function -/
theorem row_edges (f : Nat → ℚ) (n i : Nat) (hn : 2 ≤ n) (hi : i ≤ n) :
    ((edges1d .float 1 (-1) ((List.range (n + 1)).map (fun _ => (0 : ℚ))) ((List.range n).map f)).getD []).getD i 0 =
      if i = 0 then f 0 - (f 1 - f 0) * (1 / 2)
      else if i = n then f (n - 1) + (f (n - 1) - f (n - 2)) * (1 / 2)
      else 1 / 2 * (f (i - 1) + f i) := by
  have hlen : ((List.range n).map f).length = n := by simp
  obtain ⟨out, ho, _⟩ := edges1d_spec .float 1 (-1) ((List.range (n + 1)).map (fun _ => (0 : ℚ))) ((List.range n).map f)
    (by omega) (by rw [hlen]; exact hn) (by simp)
  obtain ⟨f1, f2, f3, f4⟩ := edges_float _ _ _ _ (by omega) (by rw [hlen]; exact hn) (by simp) out ho
  rw [hlen] at f1 f3 f4
  rw [ho, Option.getD_some]
  show ctr out i = _
  by_cases h0 : i = 0
  · subst h0
    rw [if_pos rfl, f2, row_getD f n 0 (by omega), row_getD f n 1 (by omega)]
  · by_cases hl : i = n
    · subst hl
      rw [if_neg h0, if_pos rfl, f3, row_getD f i _ (by omega), row_getD f i _ (by omega)]
    · rw [if_neg h0, if_neg hl, f4 i (by omega) (by omega), row_getD f n _ (by omega), row_getD f n _ (by omega)]

/-- **C16**: interior edges are the mean of the four surrounding centers, whatever the initial memory -/
theorem C16_inner (ny nx : Nat) (junk d : Nat → Nat → ℚ) (hy : 2 ≤ ny) (hx : 2 ≤ nx) :
    ∃ e, edges2d ny nx junk d = some e ∧ ∀ j i, 1 ≤ j → j < ny → 1 ≤ i → i < nx →
      e j i = (d (j - 1) (i - 1) + d (j - 1) i + d j (i - 1) + d j i) / 4 := by
  unfold edges2d
  rw [if_neg (by omega)]
  refine ⟨_, rfl, ?_⟩
  intro j i h1 h2 h3 h4
  have a1 : ¬ j = 0 := by omega
  have a2 : ¬ j = ny := by omega
  have a3 : ¬ i = 0 := by omega
  have a4 : ¬ i = nx := by omega
  simp only [a1, a2, a3, a4, h1, h2, h3, h4, or_self, and_self, if_true, if_false]
  ring

/-- **C74**, regular grids: if the initial memory happens to be zero, the edges of a regular affine
grid are the analytic ones everywhere (borders and corners included) -/
theorem C74_affine_partial (ny nx : Nat) (d : Nat → Nat → ℚ) (hy : 2 ≤ ny) (hx : 2 ≤ nx) (a b c : ℚ)
    (hd : ∀ j i : Nat, d j i = a + b * j + c * i) :
    ∃ e, edges2d ny nx (fun _ _ => 0) d = some e ∧ ∀ j i : Nat, j ≤ ny → i ≤ nx →
      e j i = a + b * (j - 1 / 2) + c * (i - 1 / 2) := by
  unfold edges2d
  rw [if_neg (by omega)]
  refine ⟨_, rfl, ?_⟩
  intro j i hj hi
  simp only []
  rw [row_edges _ nx i hx hi, row_edges _ nx i hx hi, row_edges _ ny j hy hj, row_edges _ ny j hy hj]
  simp only [hd]
  have sub1 : ∀ n : Nat, 1 ≤ n → ((n - 1 : Nat) : ℚ) = (n : ℚ) - 1 := by
    intro n hn; rw [Nat.cast_sub hn]; simp
  have sub2 : ∀ n : Nat, 2 ≤ n → ((n - 2 : Nat) : ℚ) = (n : ℚ) - 2 := by
    intro n hn; rw [Nat.cast_sub hn]; simp
  have ny1 := sub1 ny (by omega)
  have ny2 := sub2 ny (by omega)
  have nx1 := sub1 nx (by omega)
  have nx2 := sub2 nx (by omega)
  rcases Nat.eq_zero_or_pos j with h0 | h0
  · subst h0
    rcases Nat.eq_zero_or_pos i with g0 | g0
    · subst g0
      simp [show ¬ (0 = ny) by omega, show ¬ (0 = nx) by omega]
      ring
    · rcases Nat.lt_or_ge i nx with g1 | g1
      · have i1 := sub1 i g0
        simp [show ¬ (0 = ny) by omega, show ¬ (i = nx) by omega, show ¬ (i = 0) by omega, i1]
        ring
      · have : i = nx := by omega
        subst this
        simp [show ¬ (0 = ny) by omega, show ¬ (i = 0) by omega, nx1, nx2]
        ring
  · rcases Nat.lt_or_ge j ny with h1 | h1
    · have j1 := sub1 j h0
      rcases Nat.eq_zero_or_pos i with g0 | g0
      · subst g0
        simp [show ¬ (j = 0) by omega, show ¬ (j = ny) by omega, show ¬ (0 = nx) by omega, j1]
        ring
      · rcases Nat.lt_or_ge i nx with g1 | g1
        · have i1 := sub1 i g0
          simp [show ¬ (j = 0) by omega, show ¬ (j = ny) by omega, show ¬ (i = nx) by omega, show ¬ (i = 0) by omega, i1, j1, h1, g1,
            show 1 ≤ j from h0, show 1 ≤ i from g0]
          ring
        · have : i = nx := by omega
          subst this
          simp [show ¬ (j = 0) by omega, show ¬ (j = ny) by omega, show ¬ (i = 0) by omega, nx1, nx2, j1]
          ring
    · have : j = ny := by omega
      subst this
      rcases Nat.eq_zero_or_pos i with g0 | g0
      · subst g0
        simp [show ¬ (j = 0) by omega, show ¬ (0 = nx) by omega, ny1, ny2]
        ring
      · rcases Nat.lt_or_ge i nx with g1 | g1
        · have i1 := sub1 i g0
          simp [show ¬ (j = 0) by omega, show ¬ (i = nx) by omega, show ¬ (i = 0) by omega, i1, ny1, ny2]
          ring
        · have : i = nx := by omega
          subst this
          simp [show ¬ (j = 0) by omega, show ¬ (i = 0) by omega, nx1, nx2, ny1, ny2]
          ring

/-- **C74 is violated**: the border of the result depends on the uninitialised memory: changing it by
`δ` changes each border point by `δ` (or `δ/2` at the corners) -/
theorem C74_memory_violated (ny nx : Nat) (junk d : Nat → Nat → ℚ) (hy : 2 ≤ ny) (hx : 2 ≤ nx) (δ : ℚ) :
    ∃ e e', edges2d ny nx junk d = some e ∧ edges2d ny nx (fun j i => junk j i + δ) d = some e' ∧
      e' 0 0 = e 0 0 + δ / 2 ∧ ∀ i, 1 ≤ i → i < nx → e' 0 i = e 0 i + δ := by
  unfold edges2d
  rw [if_neg (by omega), if_neg (by omega)]
  refine ⟨_, _, rfl, rfl, ?_, ?_⟩
  · simp [show ¬ (0 = ny) by omega, show ¬ (0 = nx) by omega]
    ring
  · intro i h1 h2
    simp [show ¬ (0 = ny) by omega, show ¬ (i = nx) by omega, show ¬ (i = 0) by omega]
    ring

/-- **C74**, exact: two contents of the memory give the same edges exactly when they agree on the four borders; on them, the results differ by the difference of the memories, halved
at the corners. -/
theorem C74_memory_iff_partial (ny nx : Nat) (junk junk' d : Nat → Nat → ℚ) (hy : 2 ≤ ny) (hx : 2 ≤ nx) :
    ∃ e e', edges2d ny nx junk d = some e ∧ edges2d ny nx junk' d = some e' ∧
      (∀ j i : Nat, j ≤ ny → i ≤ nx → e' j i - e j i =
        if (j = 0 ∨ j = ny) ∧ (i = 0 ∨ i = nx) then (junk' j i - junk j i) / 2
        else if j = 0 ∨ j = ny ∨ i = 0 ∨ i = nx then junk' j i - junk j i else 0) ∧
      ((∀ j i : Nat, j ≤ ny → i ≤ nx → e j i = e' j i) ↔
        ∀ j i : Nat, j ≤ ny → i ≤ nx → (j = 0 ∨ j = ny ∨ i = 0 ∨ i = nx) → junk j i = junk' j i) := by
  have key : ∃ e e', edges2d ny nx junk d = some e ∧ edges2d ny nx junk' d = some e' ∧
      ∀ j i : Nat, j ≤ ny → i ≤ nx → e' j i - e j i =
        if (j = 0 ∨ j = ny) ∧ (i = 0 ∨ i = nx) then (junk' j i - junk j i) / 2
        else if j = 0 ∨ j = ny ∨ i = 0 ∨ i = nx then junk' j i - junk j i else 0 := by
    unfold edges2d
    rw [if_neg (by omega), if_neg (by omega)]
    refine ⟨_, _, rfl, rfl, ?_⟩
    intro j i hj hi
    dsimp only
    by_cases hin : 1 ≤ j ∧ j < ny ∧ 1 ≤ i ∧ i < nx
    · have a1 : ¬ j = 0 := by omega
      have a2 : ¬ j = ny := by omega
      have a3 : ¬ i = 0 := by omega
      have a4 : ¬ i = nx := by omega
      simp only [hin, a1, a2, a3, a4, or_self, and_self, if_true, if_false, sub_self]
    · have hb : j = 0 ∨ j = ny ∨ i = 0 ∨ i = nx := by omega
      rw [if_neg hin, if_neg hin, if_pos hb]
      split_ifs <;> ring
  obtain ⟨e, e', h1, h2, h3⟩ := key
  refine ⟨e, e', h1, h2, h3, ?_, ?_⟩
  · intro h j i hj hi hb
    have h4 := h3 j i hj hi
    rw [h j i hj hi, sub_self] at h4
    by_cases hc : (j = 0 ∨ j = ny) ∧ (i = 0 ∨ i = nx)
    · rw [if_pos hc] at h4; linarith
    · rw [if_neg hc, if_pos hb] at h4; linarith
  · intro h j i hj hi
    have h4 := h3 j i hj hi
    by_cases hb : j = 0 ∨ j = ny ∨ i = 0 ∨ i = nx
    · rw [h j i hj hi hb, sub_self, zero_div, ite_self, ite_self] at h4; linarith
    · rw [if_neg (by omega), if_neg hb] at h4; linarith

/-- a grid with one row or one column is an error -/
theorem C16_too_small (ny nx : Nat) (junk d : Nat → Nat → ℚ) (h : ny < 2 ∨ nx < 2) : edges2d ny nx junk d = none := by
  unfold edges2d
  rw [if_pos h]

example : (edges2d 2 2 (fun _ _ => 0) (fun j i => 10 + 3 * j + i)).map (fun e => (e 0 0, e 1 1, e 2 0)) = some (8, 12, 14) := by
  decide +kernel

end Xoa
