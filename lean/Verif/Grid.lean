import Verif.MiscAxisProps
import Mathlib.Algebra.Order.Field.Rat
import Mathlib.Algebra.Order.Floor.Ring
import Mathlib.Data.Rat.Floor
import Mathlib.Tactic.Linarith
import Mathlib.Tactic.Ring

/-!
# Model of xoa/grid.py

Coordinates are finite numbers (rationals, no rounding). The memory given by `np.empty` is a
parameter `junk` of the model.
-/

namespace Xoa

/-- type of the array: the result of the computation is stored in an array of the same type -/
inductive DType
  | float | int
  deriving DecidableEq, Repr

/-- storing a floating point value in an array: an integer array keeps the integral part -/
def DType.store : DType → ℚ → ℚ
  | .float, q => q
  | .int, q => if 0 ≤ q then (⌊q⌋ : ℚ) else (⌈q⌉ : ℚ)

/-- `data[sel]` along the axis -/
def gather (data : List ℚ) (pos : List Nat) : List ℚ := pos.filterMap (fun i => data[i]?)

/-- `edges[sel] = values` along the axis -/
def scatter (e : List ℚ) (pos : List Nat) (vals : List ℚ) : List ℚ := (pos.zip vals).foldl (fun e p => e.set p.1 p.2) e

/-- positions selected along the axis by the entry `name` of `get_axis_slices`, xoa/grid.py:69 -/
def colPos (ndim : Nat) (axis : Int) (name : String) (n : Nat) : Option (List Nat) :=
  axisPositions ndim axis name (axisIndex ndim axis) n

/-- `get_edges_1d` on one column of the array along the axis, xoa/grid.py:69-80; `none` is an
`IndexError`; `junk` is the initial content of the result -/
def edges1d (dt : DType) (ndim : Nat) (axis : Int) (junk : List ℚ) (data : List ℚ) : Option (List ℚ) := do
  let n := data.length
  let src := fun name => (colPos ndim axis name n).map (gather data)
  let first ← src "first"
  let firstp1 ← src "firstp1"
  let p ← colPos ndim axis "first" (n + 1)
  let e := scatter junk p (List.zipWith (fun a b => dt.store (a - (b - a) * (1 / 2))) first firstp1)
  let firsts ← src "firsts"
  let lasts ← src "lasts"
  let p ← colPos ndim axis "mid" (n + 1)
  let e := scatter e p (List.zipWith (fun a b => dt.store (1 / 2 * (a + b))) firsts lasts)
  let last ← src "last"
  let lastm1 ← src "lastm1"
  let p ← colPos ndim axis "last" (n + 1)
  return scatter e p (List.zipWith (fun a b => dt.store (a - (b - a) * (1 / 2))) last lastm1)

/-- an array: its shape and its values -/
structure NdArray where
  shape : List Nat
  val : List Nat → ℚ

/-- the column of an array along an axis, through the given position -/
def NdArray.column (a : NdArray) (ax : Nat) (idx : List Nat) : List ℚ :=
  (List.range (a.shape.getD ax 0)).map (fun i => a.val (idx.set ax i))

/-- `get_edges_1d(da, axis)`, xoa/grid.py:26-91, column by column: shape and values of the result -/
def edgesNd (dt : DType) (axis : Int) (junk : NdArray) (da : NdArray) : Option NdArray :=
  let ax := axisIndex da.shape.length axis
  if -(da.shape.length : Int) ≤ axis ∧ axis < da.shape.length ∧ 2 ≤ da.shape.getD ax 0 then
    let shape := da.shape.set ax (da.shape.getD ax 0 + 1)
    some ⟨shape, fun idx =>
      ((edges1d dt da.shape.length axis (({ junk with shape := shape } : NdArray).column ax idx) (da.column ax idx)).getD []).getD (idx.getD ax 0) 0⟩
  else none

/-- `get_edges_2d` on a `ny x nx` floating point array, xoa/grid.py:94-130; `none` is an `IndexError`.
`junk` is the initial content of the result. -/
def edges2d (ny nx : Nat) (junk : Nat → Nat → ℚ) (d : Nat → Nat → ℚ) : Option (Nat → Nat → ℚ) :=
  if ny < 2 ∨ nx < 2 then none
  else
    let row (f : Nat → ℚ) (n : Nat) : List ℚ := (List.range n).map f
    let e1 (f : Nat → ℚ) (n : Nat) : Nat → ℚ := fun i =>
      ((edges1d .float 1 (-1) (row (fun _ => 0) (n + 1)) (row f n)).getD []).getD i 0
    -- Inner, :106-110
    let e : Nat → Nat → ℚ := fun j i =>
      if 1 ≤ j ∧ j < ny ∧ 1 ≤ i ∧ i < nx then
        1 / 4 * (d j i + d (j - 1) i + d j (i - 1) + d (j - 1) (i - 1))
      else junk j i
    -- Lower and upper, :112-114
    let e := fun j i => if j = 0 then e j i + e1 (fun i => 3 / 2 * d 0 i - 1 / 2 * d 1 i) nx i else e j i
    let e := fun j i => if j = ny then e j i + e1 (fun i => 3 / 2 * d (ny - 1) i - 1 / 2 * d (ny - 2) i) nx i else e j i
    -- Left and right, :116-118
    let e := fun j i => if i = 0 then e j i + e1 (fun j => 3 / 2 * d j 0 - 1 / 2 * d j 1) ny j else e j i
    let e := fun j i => if i = nx then e j i + e1 (fun j => 3 / 2 * d j (nx - 1) - 1 / 2 * d j (nx - 2)) ny j else e j i
    -- Corners, :120-121
    let e := fun j i => if (j = 0 ∨ j = ny) ∧ (i = 0 ∨ i = nx) then e j i * (1 / 2) else e j i
    some e

end Xoa
