import Verif.Regrid
import Verif.Interp1dF
import Verif.CellaveF
import Verif.GridF

/-!
# `regrid1d` in floating-point arithmetic

The same program as `regrid1d` of `Verif.Regrid`: the rows are laid out and put back by the same functions, which copy values, and the interpolation is that of
`Verif.Interp1dF` or of `Verif.CellaveF`, where every operation is rounded.
-/

namespace Xoa

/-- `grid.get_edges_1d(y, axis=-1)` of a 2-D floating point array, with rounding, xoa/regrid.py:116-117 -/
def edgesMatF (fl : ℚ → ℚ) (m : Mat) : Except CErr (NMat ℚ) :=
  if m.ny < 2 then .error .indexError
  else .ok ⟨m.nx, m.ny + 1, fun i j => ((edges1dF fl 2 (-1) (List.replicate (m.ny + 1) 0) (rowList m i)).getD []).getD j 0⟩

/-- the function `getattr(interp, func_name)` called with the arguments, xoa/regrid.py:115-125; see `callInterp` -/
def callInterpF (fl : ℚ → ℚ) (name : Str) (kw : RegridKw) (vari yi yo : Mat) : Except CErr Mat :=
  if name = "linear1d".toList then .ok (linear1dF fl vari yi yo)
  else if name = "nearest1d".toList then .ok (nearest1dF fl vari yi yo)
  else if name = "cubic1d".toList then .ok (cubic1dF fl vari yi yo)
  else if name = "hermit1d".toList then .ok (hermit1dF fl vari yi yo (kw.bias.getD 0) (kw.tension.getD 0))
  else if name = "cellave1d".toList then
    (edgesMatF fl yi).bind fun yib => (edgesMatF fl yo).bind fun yob =>
      .ok (cellave1dF fl vari.toN yib yob (kw.conserv.getD false) .no).toM
  else .error .valueError

/-- `regrid1d(da, coord, ...)` once the names are chosen, xoa/regrid.py:99-133; see `regrid1d` -/
def regrid1dF (fl : ℚ → ℚ) (o : RegridOpts) (da cin cout : LArr V) (dim0 dim1 : String) : Except CErr (LArr V) := do
  let f ← flush da cin cout dim0 dim1
  -- :104
  let m ← enumGetE regridMethods o.method
  -- :107
  let name := ((enumName regridMethods m).getD []) ++ "1d".toList
  -- :121-122 (`conserv` is not passed)
  let kw : RegridKw := if memberEqStr m "hermit".toList then { bias := some o.bias, tension := some o.tension } else {}
  -- :125
  let varo ← callInterpF fl name kw f.daIn f.coordIn f.coordOut
  -- :128-130
  let e ← enumGetE extrapModes o.extrap
  let varo := if e ≠ 0 then extrap1d varo (extrapOfMember e) else varo
  getBack f varo

end Xoa
