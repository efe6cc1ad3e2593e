import Verif.Coords
import Verif.Interp1d
import Verif.Cellave
import Verif.Grid
import Verif.Misc

/-!
# Model of `regrid1d`, xoa/regrid.py:65-133
-/

namespace Xoa

/-- `regrid1d_methods`, xoa/regrid.py:34-48 -/
def regridMethods : EnumDecl :=
  [("linear".toList, 1), ("interp".toList, 1), ("nearest".toList, 0), ("cubic".toList, 2), ("hermit".toList, 3),
   ("hermitian".toList, 3), ("cellave".toList, -1)]

/-- `extrap_modes`, xoa/regrid.py:51-62 -/
def extrapModes : EnumDecl :=
  [("no".toList, 0), ("none".toList, 0), ("above".toList, 1), ("below".toList, -1), ("both".toList, 2), ("all".toList, 2), ("yes".toList, 2)]

/-- `str(member)`: the first name declared for the number, xoa/misc.py:163-166 -/
def enumName (e : EnumDecl) (n : Int) : Option Str := (e.find? (fun p => p.2 = n)).map (·.1)

/-- exception of `cls[arg]`: `KeyError` for an unknown name, `ValueError` for an unknown number -/
def enumGetE (e : EnumDecl) (a : EArg) : Except CErr Int :=
  match enumGet e a with
  | some n => .ok n
  | none => .error (match a with | .str _ => .keyError | _ => .valueError)

/-- the rows of finite coordinates as lists (missing coordinates are outside the model of `cellave1d`; they are 0 here) -/
def rowList (m : Mat) (i : Nat) : List ℚ := (List.range m.ny).map (fun j : Nat => (m.get (i : Int) (j : Int)).getD 0)

/-- `grid.get_edges_1d(y, axis=-1)` of a 2-D floating point array, xoa/regrid.py:116-117 -/
def edgesMat (m : Mat) : Except CErr (NMat ℚ) :=
  if m.ny < 2 then .error .indexError
  else .ok ⟨m.nx, m.ny + 1, fun i j => ((edges1d .float 2 (-1) (List.replicate (m.ny + 1) 0) (rowList m i)).getD []).getD j 0⟩

/-- 2-D array with natural indices -/
def Mat.toN (m : Mat) : NMat V := ⟨m.nx, m.ny, fun i j => m.get i j⟩
/-- 2-D array with integer indices -/
def NMat.toM (m : NMat V) : Mat := ⟨m.nx, m.ny, fun i j => m.get i.toNat j.toNat⟩

/-- keyword arguments of the call, xoa/regrid.py:110-122: options that are not passed are `none` -/
structure RegridKw where
  bias : Option ℚ := none
  tension : Option ℚ := none
  conserv : Option Bool := none

/-- the function `getattr(interp, func_name)` called with the arguments, xoa/regrid.py:115-125. An option that is not passed
takes the default value of the function (`hermit1d`: xoa/interp.py:296; `cellave1d`: xoa/interp.py:429). -/
def callInterp (name : Str) (kw : RegridKw) (vari yi yo : Mat) : Except CErr Mat :=
  if name = "linear1d".toList then .ok (linear1d vari yi yo)
  else if name = "nearest1d".toList then .ok (nearest1d vari yi yo)
  else if name = "cubic1d".toList then .ok (cubic1d vari yi yo)
  else if name = "hermit1d".toList then .ok (hermit1d vari yi yo (kw.bias.getD 0) (kw.tension.getD 0))
  else if name = "cellave1d".toList then do
    let yib ← edgesMat yi
    let yob ← edgesMat yo
    .ok (cellave1d vari.toN yib yob (kw.conserv.getD false) .no).toM
  else .error .valueError

/-- comparison of an `IntEnum` member with a string: never equal, xoa/regrid.py:121 -/
def memberEqStr (_ : Int) (_ : Str) : Bool := false

/-- mode seen by `extrap1d` when it is given an `IntEnum` member: it compares it with strings only
(xoa/interp.py:409, 420, 422) -/
def extrapOfMember (_ : Int) : Extrap := .other

/-- the options of `regrid1d` -/
structure RegridOpts where
  method : EArg := .none
  extrap : EArg := .num 0
  conserv : Bool := false
  bias : ℚ := 0
  tension : ℚ := 0

/-- `regrid1d(da, coord, ...)` once the names are chosen (`regridNames`), xoa/regrid.py:99-133 -/
def regrid1d (o : RegridOpts) (da cin cout : LArr V) (dim0 dim1 : String) : Except CErr (LArr V) := do
  let f ← flush da cin cout dim0 dim1
  -- :104
  let m ← enumGetE regridMethods o.method
  -- :107
  let name := ((enumName regridMethods m).getD []) ++ "1d".toList
  -- :121-122 (`conserv` is not passed)
  let kw : RegridKw := if memberEqStr m "hermit".toList then { bias := some o.bias, tension := some o.tension } else {}
  -- :125
  let varo ← callInterp name kw f.daIn f.coordIn f.coordOut
  -- :128-130
  let e ← enumGetE extrapModes o.extrap
  let varo := if e ≠ 0 then extrap1d varo (extrapOfMember e) else varo
  getBack f varo

end Xoa
