import Verif.Regrid
import Verif.RegridNames

/-!
# Model of the whole of `regrid1d` (xoa/regrid.py:65-133): the names are inferred, then the values are made
-/

namespace Xoa

/-- an array with its values, its `axis` attribute and the axis that the specifications give to its name (`AxArr` with values) -/
structure XArr where
  arr : LArr V
  axisAttr : Option Str := none
  cfAxis : Option Str := none

/-- an array with its named coordinates, in order (`DArr` with values) -/
structure XData where
  self : XArr
  coords : List (Str × XArr) := []

/-- what the choice of names sees of an array -/
def XArr.ax (a : XArr) : AxArr := ⟨a.arr.dims.map String.toList, a.axisAttr, a.cfAxis⟩

/-- what the choice of names sees of an array and its coordinates -/
def XData.names (a : XData) : DArr := ⟨a.self.ax, a.coords.map fun p => (p.1, p.2.ax)⟩

/-- the errors of `regrid1d` -/
inductive TErr
  | names (e : NErr)
  | calc (e : CErr)
  deriving DecidableEq

/-- the computation once the names are chosen: the input coordinate is `da.coords[coord_in_name]`, xoa/coords.py:424 -/
def regridChosen (o : RegridOpts) (da cout : XData) (n : Str × Str × Str) : Except TErr (LArr V) :=
  (lookupS n.2.2 da.coords).elim (.error (.calc .keyError)) fun c =>
    (regrid1d o da.self.arr c.arr cout.self.arr (String.ofList n.1) (String.ofList n.2.1)).mapError .calc

/-- `regrid1d(da, coord, method, dim, coord_in_name, conserv, extrap, bias, tension)`, xoa/regrid.py:65-133, with the choice of names of
xoa/coords.py:323-392; `dim` is the pair made at :325-327, `coutNamed` tells if `coord` has a name -/
def regridTop (o : RegridOpts) (sg : SG) (types : CfDims) (da cout : XData) (dim : Option Str × Option Str) (coordInName : Option Str)
    (coutNamed : Bool) : Except TErr (LArr V) :=
  ((regridNames sg types da.names cout.names dim coordInName coutNamed).mapError .names).bind (regridChosen o da cout)

end Xoa
