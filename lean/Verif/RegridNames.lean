import Verif.CfDims

/-!
# Model of the choice of the names by `DimFlusher1D` (xoa/coords.py), with the modelled searches of xoa/cf.py
-/

namespace Xoa

/-- the errors of the choice of names -/
inductive NErr
  | cfError              -- XoaCFError of xoa/coords.py:349 and 363
  | dim (e : DErr)       -- errors of the searches
  | assertionError
  | unboundLocal
  deriving DecidableEq, Repr

/-- a coordinate of `da` as `da.coords[name]` gives it: it has the coordinates of `da` whose dimensions are among its own ones -/
def DArr.sub (da : DArr) (c : AxArr) : DArr := ⟨c, da.coords.filter fun p => p.2.dims.all fun d => decide (d ∈ c.dims)⟩

/-- the output dimension and its type, xoa/coords.py:328-338. `search_dim` without type never gives `None` but a pair (xoa/cf.py:2121), so
that the test of :333 is never true. `hasCf` tells if the specifications are loaded (:328-329) -/
def namesOut (sg : SG) (types : CfDims) (cout : DArr) (hasCf : Bool) : Option Str → Except NErr (Option Str × Option Str)
  | none => (searchDim0 sg types cout none).mapError .dim
  | some d => if hasCf then ((getDimType sg types d (some cout)).mapError .dim).map fun t => (some d, t) else .error .unboundLocal

/-- the loop on the coordinates of the data, xoa/coords.py:341-351 -/
def namesInLoop (sg : SG) (types : CfDims) (da : DArr) (t : Str) : List (Str × AxArr) → Except NErr Str
  | [] => .error .cfError
  | c :: cs => ((searchDim sg types (da.sub c.2) t none).mapError .dim).bind fun r =>
      if r.getD [] = [] then namesInLoop sg types da t cs else .ok (r.getD [])

/-- the input dimension, xoa/coords.py:339-353; `none` when it is `None` -/
def namesIn (sg : SG) (types : CfDims) (da : DArr) (out : Option Str × Option Str) : Option Str → Except NErr (Option Str)
  | some d => .ok (some d)
  | none => if out.2.getD [] = [] then .ok out.1 else (namesInLoop sg types da (out.2.getD []) da.coords).map some

/-- the input coordinate, xoa/coords.py:357-365, and the name of the output one, :392, that reads `coord_in` when `coord_out` has no name:
this variable does not exist when the name of the input coordinate is given -/
def namesCoord (sg : SG) (types : CfDims) (da : DArr) (d0 : Str) (coordInName : Str) (coutNamed : Bool) : Except NErr Str :=
  if coordInName = [] then ((searchFromDim sg types da d0).mapError .dim).bind fun r => r.elim (.error .cfError) fun p => .ok p.1
  else if coordInName ∉ da.coords.map (·.1) then .error .assertionError
  else if coutNamed then .ok coordInName
  else .error .unboundLocal

/-- `DimFlusher1D.__init__(da, coord, dim, coord_in_name)`, xoa/coords.py:323-392: the input and output dimensions, and the name of the input
coordinate. `dim` is the pair made at :325-327; `coutNamed` tells if the output coordinate has a name -/
def regridNames (sg : SG) (types : CfDims) (da cout : DArr) (dim : Option Str × Option Str) (coordInName : Option Str) (coutNamed : Bool) :
    Except NErr (Str × Str × Str) :=
  (namesOut sg types cout (dim.1.isNone || dim.2.isNone || coordInName.isNone) dim.2).bind fun out =>
  (namesIn sg types da out dim.1).bind fun d0 =>
    d0.elim (.error .assertionError) fun d0 => out.1.elim (.error .assertionError) fun d1 =>
      if d0 ∉ da.self.dims ∨ d1 ∉ cout.self.dims then .error .assertionError
      else (namesCoord sg types da d0 (coordInName.getD []) coutNamed).map fun n => (d0, d1, n)

end Xoa
