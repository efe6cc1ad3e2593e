import Verif.Misc
import Mathlib.Data.List.Basic
import Mathlib.Tactic.SplitIfs

/-!
# C54 `get_axis_slices`
-/

namespace Xoa

/-- the names of the entries returned by `get_axis_slices` -/
def axisSliceNames : List String :=
  ["all", "mid", "lasts", "firsts", "lastsp1", "firstsm1", "last", "first", "lastm1", "lastm2", "firstp1", "firstp2"]

/-- the axis index that `axis` denotes (negative indices count from the end) -/
def axisIndex (ndim : Nat) (axis : Int) : Nat := (if axis < 0 then axis + ndim else axis).toNat

/-- Positions selected along dimension `j` (of length `n`) by the entry `name`;
`none` is an `IndexError`. -/
def axisPositions (ndim : Nat) (axis : Int) (name : String) (j n : Nat) : Option (List Nat) :=
  ((axisSlices ndim axis name).bind (fun sel => sel[j]?)).bind (Sel.positions n)

theorem pySet_valid {α : Type} (l : List α) (axis : Int) (x : α)
    (h : -(l.length : Int) ≤ axis ∧ axis < l.length) :
    pySet l axis x = some (l.set (axisIndex l.length axis) x) := by
  unfold pySet axisIndex
  by_cases h0 : 0 ≤ axis
  · rw [if_pos ⟨h0, h.2⟩, if_neg (by omega)]
  · rw [if_neg (by omega), if_pos ⟨by omega, h.1⟩, if_pos (by omega)]

theorem pySet_invalid {α : Type} (l : List α) (axis : Int) (x : α)
    (h : ¬ (-(l.length : Int) ≤ axis ∧ axis < l.length)) : pySet l axis x = none := by
  unfold pySet
  rw [if_neg (by omega), if_neg (by omega)]

/-- **C54**: every entry exists for a valid axis and an out-of-range axis is an error. -/
theorem C54_axis_valid (ndim : Nat) (axis : Int) (name : String) (hn : name ∈ axisSliceNames) :
    (axisSlices ndim axis name).isSome ↔ -(ndim : Int) ≤ axis ∧ axis < ndim := by
  have hlen : (List.replicate ndim (Sel.slice none none)).length = ndim := List.length_replicate
  by_cases h : -(ndim : Int) ≤ axis ∧ axis < ndim
  · have hs : ∀ x, pySet (List.replicate ndim (Sel.slice none none)) axis x = some ((List.replicate ndim (Sel.slice none none)).set (axisIndex ndim axis) x) := by
      intro x
      rw [pySet_valid _ _ _ (by rw [hlen]; exact h), hlen]
    simp only [axisSliceNames, List.mem_cons, List.not_mem_nil, or_false] at hn
    rcases hn with e | e | e | e | e | e | e | e | e | e | e | e <;> subst e <;> simp [axisSlices, hs, h]
  · have hs : ∀ x, pySet (List.replicate ndim (Sel.slice none none)) axis x = none :=
      fun x => pySet_invalid _ _ _ (by rw [hlen]; exact h)
    simp only [axisSliceNames, List.mem_cons, List.not_mem_nil, or_false] at hn
    rcases hn with e | e | e | e | e | e | e | e | e | e | e | e <;> subst e <;> simp [axisSlices, hs] <;> omega

/-- **C54**: each entry has one item per dimension and selects everything along the other
dimensions, whatever their length. -/
theorem C54_axis_others (ndim : Nat) (axis : Int) (name : String)
    (h : -(ndim : Int) ≤ axis ∧ axis < ndim) (hn : name ∈ axisSliceNames) (j n : Nat) (hj : j < ndim)
    (hja : j ≠ axisIndex ndim axis) :
    (axisSlices ndim axis name).map List.length = some ndim ∧
    axisPositions ndim axis name j n = some (List.range n) := by
  have hlen : (List.replicate ndim (Sel.slice none none)).length = ndim := List.length_replicate
  have hs : ∀ x, pySet (List.replicate ndim (Sel.slice none none)) axis x = some ((List.replicate ndim (Sel.slice none none)).set (axisIndex ndim axis) x) := by
    intro x
    rw [pySet_valid _ _ _ (by rw [hlen]; exact h), hlen]
  have hg : ∀ x, ((List.replicate ndim (Sel.slice none none)).set (axisIndex ndim axis) x)[j]? = some (.slice none none) := by
    intro x
    rw [List.getElem?_set_ne (Ne.symm hja), List.getElem?_replicate, if_pos hj]
  have hp : Sel.positions n (.slice none none) = some (List.range n) := by
    simp [Sel.positions, List.range_eq_range']
  simp only [axisSliceNames, List.mem_cons, List.not_mem_nil, or_false] at hn
  unfold axisPositions
  have hr : (List.replicate ndim (Sel.slice none none))[j]? = some (.slice none none) := by
    rw [List.getElem?_replicate, if_pos hj]
  rcases hn with e | e | e | e | e | e | e | e | e | e | e | e <;> subst e <;>
    simp only [axisSlices, hs, hg, hp, hr, Option.map_some, Option.bind_some, List.length_set, List.length_replicate,
      and_self]

theorem axisPositions_axis (ndim : Nat) (axis : Int) (n : Nat)
    (h : -(ndim : Int) ≤ axis ∧ axis < ndim) :
    let P := fun name => axisPositions ndim axis name (axisIndex ndim axis) n
    P "all" = some (List.range n) ∧
    P "mid" = some (List.range' 1 (n - 2)) ∧
    P "lasts" = some (List.range' 1 (n - 1)) ∧
    P "firsts" = some (List.range (n - 1)) ∧
    P "lastsp1" = some (List.range' 2 (n - 2)) ∧
    P "firstsm1" = some (List.range (n - 2)) ∧
    P "last" = (if 1 ≤ n then some [n - 1] else none) ∧
    P "first" = (if 1 ≤ n then some [0] else none) ∧
    P "lastm1" = (if 2 ≤ n then some [n - 2] else none) ∧
    P "lastm2" = (if 3 ≤ n then some [n - 3] else none) ∧
    P "firstp1" = (if 2 ≤ n then some [1] else none) ∧
    P "firstp2" = (if 3 ≤ n then some [2] else none) := by
  have hlen : (List.replicate ndim (Sel.slice none none)).length = ndim := List.length_replicate
  have hs : ∀ x, pySet (List.replicate ndim (Sel.slice none none)) axis x = some ((List.replicate ndim (Sel.slice none none)).set (axisIndex ndim axis) x) := by
    intro x
    rw [pySet_valid _ _ _ (by rw [hlen]; exact h), hlen]
  have hi : axisIndex ndim axis < ndim := by unfold axisIndex; split <;> omega
  have hg : ∀ x, ((List.replicate ndim (Sel.slice none none)).set (axisIndex ndim axis) x)[axisIndex ndim axis]? = some x := by
    intro x
    rw [List.getElem?_set_self (by rw [hlen]; exact hi)]
  simp only [axisPositions, axisSlices, hs, hg, Option.bind_some, Option.map_some, List.getElem?_replicate, if_pos hi]
  refine ⟨?_, ?_, ?_, ?_, ?_, ?_, ?_, ?_, ?_, ?_, ?_, ?_⟩
  · simp [Sel.positions, List.range_eq_range']
  · simp only [Sel.positions, Option.some.injEq, Int.reduceNeg, Int.reduceLT, if_true, if_false]
    by_cases h1 : n = 0
    · subst h1; rfl
    · rw [show (max (0:Int) (min 1 ↑n)).toNat = 1 by omega]
      congr 1; omega
  · simp only [Sel.positions, Option.some.injEq, Int.reduceLT, if_false]
    by_cases h1 : n = 0
    · subst h1; rfl
    · rw [show (max (0:Int) (min 1 ↑n)).toNat = 1 by omega]
  · simp only [Sel.positions, Option.some.injEq, Int.reduceNeg, Int.reduceLT, if_true, List.range_eq_range']
    simp only [if_false]
    rw [show (max (0:Int) (min 0 ↑n)).toNat = 0 by omega]
    rw [show (max (0:Int) (min (-1 + (n:Int)) n)).toNat - 0 = n - 1 by omega]
  · simp only [Sel.positions, Option.some.injEq, Int.reduceLT, if_false]
    by_cases h1 : n = 0
    · subst h1; rfl
    · by_cases h2 : n = 1
      · subst h2; rfl
      · rw [show (max (0:Int) (min 2 ↑n)).toNat = 2 by omega]
  · simp only [Sel.positions, Option.some.injEq, Int.reduceNeg, Int.reduceLT, if_true, List.range_eq_range']
    simp only [if_false]
    rw [show (max (0:Int) (min 0 ↑n)).toNat = 0 by omega]
    rw [show (max (0:Int) (min (-2 + (n:Int)) n)).toNat - 0 = n - 2 by omega]
  all_goals
    simp only [Sel.positions]
    split_ifs <;> first | rfl | omega | (simp; omega)

/-- **C54**: along the axis, `first`/`lasts` and `firsts`/`last` partition the positions,
`mid` removes both ends, `lastsp1`/`firstsm1` remove two, the shifted single elements are
where they are said to be. -/
theorem C54_axis_partition (ndim : Nat) (axis : Int) (n : Nat)
    (h : -(ndim : Int) ≤ axis ∧ axis < ndim) :
    let P := fun name => (axisPositions ndim axis name (axisIndex ndim axis) n).getD []
    let ok := fun name => (axisPositions ndim axis name (axisIndex ndim axis) n).isSome
    P "all" = List.range n ∧
    (1 ≤ n → ok "first" ∧ ok "last" ∧ P "first" ++ P "lasts" = List.range n ∧ P "firsts" ++ P "last" = List.range n) ∧
    (2 ≤ n → ok "firstp1" ∧ ok "lastm1" ∧ P "first" ++ P "mid" ++ P "last" = List.range n ∧
      P "first" ++ P "firstp1" ++ P "lastsp1" = List.range n ∧
      P "firstsm1" ++ P "lastm1" ++ P "last" = List.range n) ∧
    (3 ≤ n → ok "firstp2" ∧ ok "lastm2" ∧
      P "first" ++ P "firstp1" ++ P "firstp2" = List.range 3 ∧
      P "lastm2" ++ P "lastm1" ++ P "last" = List.range' (n - 3) 3) ∧
    (n ≤ 1 → P "mid" = []) ∧ (n ≤ 2 → P "lastsp1" = [] ∧ P "firstsm1" = []) ∧
    (n = 0 → ¬ ok "first" ∧ ¬ ok "last" ∧ P "firsts" = [] ∧ P "lasts" = []) := by
  obtain ⟨e1, e2, e3, e4, e5, e6, e7, e8, e9, e10, e11, e12⟩ := axisPositions_axis ndim axis n h
  dsimp only at e1 e2 e3 e4 e5 e6 e7 e8 e9 e10 e11 e12 ⊢
  simp only [e1, e2, e3, e4, e5, e6, e7, e8, e9, e10, e11, e12, Option.getD_some, List.range_eq_range']
  refine ⟨trivial, ?_, ?_, ?_, ?_, ?_, ?_⟩
  · intro hn
    simp only [if_pos hn, Option.isSome_some, Option.getD_some, true_and]
    constructor
    · obtain ⟨m, rfl⟩ : ∃ m, n = m + 1 := ⟨n - 1, by omega⟩
      rw [List.range'_succ]; rfl
    · obtain ⟨m, rfl⟩ : ∃ m, n = m + 1 := ⟨n - 1, by omega⟩
      rw [Nat.add_sub_cancel, List.range'_1_concat]; simp
  · intro hn
    simp only [if_pos hn, if_pos (by omega : 1 ≤ n), Option.isSome_some, Option.getD_some, true_and]
    obtain ⟨m, rfl⟩ : ∃ m, n = m + 2 := ⟨n - 2, by omega⟩
    refine ⟨?_, ?_, ?_⟩
    · rw [show m + 2 - 2 = m by omega, show m + 2 - 1 = 1 + m by omega, List.append_assoc, ← List.range'_1_concat,
        List.singleton_append]; rfl
    · rw [show m + 2 - 2 = m by omega, show m + 2 = (m + 1) + 1 by omega, List.range'_succ, List.range'_succ]
      rfl
    · rw [show m + 2 - 2 = m by omega, show m + 2 - 1 = 0 + (m + 1) by omega, show m + 2 = (m + 1) + 1 by omega,
        List.range'_1_concat, List.range'_1_concat]
      simp
  · intro hn
    simp only [if_pos hn, if_pos (by omega : 1 ≤ n), if_pos (by omega : 2 ≤ n), Option.isSome_some, Option.getD_some,
      true_and]
    obtain ⟨m, rfl⟩ : ∃ m, n = m + 3 := ⟨n - 3, by omega⟩
    refine ⟨by decide, ?_⟩
    rw [show m + 3 - 3 = m by omega, show m + 3 - 2 = m + 1 by omega, show m + 3 - 1 = m + 2 by omega]
    rfl
  · intro hn
    rw [show n - 2 = 0 by omega]; rfl
  · intro hn
    rw [show n - 2 = 0 by omega]; exact ⟨rfl, rfl⟩
  · intro hn
    subst hn; simp

example : axisPositions 3 (-2) "mid" 1 5 = some [1, 2, 3] := by decide
example : axisPositions 3 (-2) "mid" 2 4 = some [0, 1, 2, 3] := by decide
example : axisSlices 3 3 "mid" = none := by decide

end Xoa
