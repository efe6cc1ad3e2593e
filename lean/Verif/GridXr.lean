import Verif.Grid
import Verif.Str

/-!
# Model of the labels of the results of xoa/grid.py

The values are those of `Verif.Grid`. An array is a plain `numpy` array (no labels) or a `DataArray`, with the names of its
dimensions and its name. Coordinates and attributes are not modelled: the results have none (xoa/grid.py:89-90, 128-129).
-/

namespace Xoa

/-- an array, with the names of its dimensions and its name if it is a `DataArray` -/
structure GArr where
  arr : NdArray
  labels : Option (List Str × Option Str)

/-- the argument `axis` of `get_edges_1d`: a position or the name of a dimension, xoa/grid.py:32-34 -/
inductive AxArg
  | pos (i : Int)
  | dim (d : Str)

/-- the exceptions raised -/
inductive EdgeErr
  | xoaError | valueError | indexError | typeError | attributeError
  deriving DecidableEq, Repr

/-- the position of the axis, xoa/grid.py:64-68: a name needs a `DataArray`; `tuple.index` raises `ValueError` -/
def axisOf (axis : AxArg) (labels : Option (List Str × Option Str)) : Except EdgeErr Int :=
  match axis with
  | .pos i => .ok i
  | .dim d => match labels with
    | none => .error .xoaError
    | some l => if d ∈ l.1 then .ok (l.1.idxOf d : Int) else .error .valueError

/-- `(da.name+name_suffix) if da.name else da.name`, xoa/grid.py:88, 127 -/
def edgeName (suffix : Str) (name : Option Str) : Option Str :=
  match name with
  | none => none
  | some s => if s = [] then some s else some (s ++ suffix)

/-- `dims[axis] += name_suffix`, xoa/grid.py:86-87 -/
def edgeDims (suffix : Str) (axis : Int) (dims : List Str) : List Str :=
  dims.set (axisIndex dims.length axis) (dims.getD (axisIndex dims.length axis) [] ++ suffix)

/-- the labels of the result of `get_edges_1d`, xoa/grid.py:85-90 -/
def edgeLabels1 (suffix : Str) (axis : Int) (labels : Option (List Str × Option Str)) : Option (List Str × Option Str) :=
  match labels with
  | none => none
  | some l => some (edgeDims suffix axis l.1, edgeName suffix l.2)

/-- `get_edges_1d(da, axis, name_suffix)`, xoa/grid.py:26-91. A size less than 2 along the axis or an axis out of range is an
`IndexError` -/
def getEdges1d (dt : DType) (axis : AxArg) (suffix : Str) (junk : NdArray) (da : GArr) : Except EdgeErr GArr :=
  match axisOf axis da.labels with
  | .error e => .error e
  | .ok i => match edgesNd dt i junk da.arr with
    | none => .error .indexError
    | some r => .ok ⟨r, edgeLabels1 suffix i da.labels⟩

/-- the end of `get_edges_2d`, xoa/grid.py:122-130: `da.dims` does not exist for a plain array -/
def finish2d (suffix : Str) (labels : Option (List Str × Option Str)) (r : NdArray) : Except EdgeErr GArr :=
  match labels with
  | none => .error .attributeError
  | some l => .ok ⟨r, some (edgeDims suffix 1 (edgeDims suffix 0 l.1), edgeName suffix l.2)⟩

/-- `get_edges_2d` of an array of two dimensions, xoa/grid.py:104-130. In an array of integers, the in-place additions of floating point
values (113-118) are refused by numpy with a `UFuncTypeError`, that is a `TypeError` -/
def edges2dSized (dt : DType) (suffix : Str) (junk : NdArray) (da : GArr) (ny nx : Nat) : Except EdgeErr GArr :=
  match edges2d ny nx (fun j i => junk.val [j, i]) (fun j i => da.arr.val [j, i]) with
  | none => .error .indexError
  | some e => if dt = .int then .error .typeError
    else finish2d suffix da.labels ⟨[ny + 1, nx + 1], fun idx => e (idx.getD 0 0) (idx.getD 1 0)⟩

/-- `get_edges_2d(da, name_suffix)`, xoa/grid.py:94-130 -/
def getEdges2d (dt : DType) (suffix : Str) (junk : NdArray) (da : GArr) : Except EdgeErr GArr :=
  if da.arr.shape.length ≠ 2 then .error .valueError
  else edges2dSized dt suffix junk da (da.arr.shape.getD 0 0) (da.arr.shape.getD 1 0)

end Xoa
