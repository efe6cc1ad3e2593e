import Verif.Interp1d
import Mathlib.Data.Rat.Floor

/-!
# Model of the 1-D routines of `xoa/interp.py` for integer data

`regrid1d` passes the data as they are (xoa/coords.py:447), and the routines make an output array of the same type
(`dtype=vari.dtype`, xoa/interp.py:81, 153, 236, 325). For an integer type, each write converts a float to an integer. The coordinates are floats.
The values of the model are still in `V`: an integer array has only values `some n`. The size of the integers is not modelled.
-/

namespace Xoa
open V

/-- write of a float in an integer array: truncation toward zero, and an unspecified integer `g` for NaN -/
def storeI (g : Int) : V → V
  | none => some g
  | some q => some ((if 0 ≤ q then ⌊q⌋ else ⌈q⌉ : Int) : ℚ)

/-- `np.full((nx, nyo), np.nan, dtype=vari.dtype)`, xoa/interp.py:81, 153, 236, 325 -/
def fullI (g : Int) : Int → Int → V := fun _ _ => storeI g none

/-- an integer output array from its row contents -/
def mkOutI (g : Int) (vari yo : Mat) (body : Int → (Int → V) → (Int → V)) : Mat :=
  ⟨max vari.nx yo.nx, yo.ny, rowLoop body (pyRange 0 (max vari.nx yo.nx : Nat)) (fullI g)⟩

/-- `nearest1d(vari, yi, yo)` for integer data, xoa/interp.py:53-122 -/
def nearest1dI (g : Int) (vari yi yo : Mat) : Mat := mkOutI g vari yo fun ix =>
  nlRow (yi.row (rowIdx yi.nx ix)) (yo.row (rowIdx yo.nx ix)) fun iyi dy0 dy1 => (nearestW (vari.row (rowIdx vari.nx ix)) iyi dy0 dy1).map (storeI g)

/-- `linear1d(vari, yi, yo)` for integer data, xoa/interp.py:125-205 -/
def linear1dI (g : Int) (vari yi yo : Mat) : Mat := mkOutI g vari yo fun ix =>
  nlRow (yi.row (rowIdx yi.nx ix)) (yo.row (rowIdx yo.nx ix)) fun iyi dy0 dy1 => (linearW (vari.row (rowIdx vari.nx ix)) iyi dy0 dy1).map (storeI g)

/-- value written by `cubic1d` for integer data, xoa/interp.py:271, 283-290: each of the four assignments writes an integer, that the next one reads -/
def cubicWI (g : Int) (va vb : Row) (iyimin iyimax iyi : Int) (dy0 dy1 : V) : V :=
  let mu := div dy0 (add dy0 dy1)
  let c0 := vc0 va vb iyimin iyi
  let c1 := vc1 vb iyimax iyi
  let t := storeI g (add (sub (sub c1 (va.rd (iyi + 1))) c0) (va.rd iyi))
  let t2 := storeI g (add (mul (cube mu) t) (mul (sq mu) (sub (sub c0 (va.rd iyi)) t)))
  let t3 := storeI g (add t2 (mul mu (sub (va.rd (iyi + 1)) c0)))
  storeI g (add t3 (va.rd iyi))

/-- `cubic1d(vari, yi, yo)` for integer data, xoa/interp.py:208-292 -/
def cubic1dI (g : Int) (vari yi yo : Mat) : Mat := mkOutI g vari yo fun ix =>
  chRow (yi.row (rowIdx yi.nx ix)) (yo.row (rowIdx yo.nx ix)) (cubicWI g (vari.row ix) (vari.row (rowIdx vari.nx ix)))

/-- value written by `hermit1d` for integer data, xoa/interp.py:372-389: each of the four assignments writes an integer, that the next one reads -/
def hermitWI (g : Int) (bias tension : ℚ) (va vb : Row) (iyimin iyimax iyi : Int) (dy0 dy1 : V) : V :=
  let mu := div dy0 (add dy0 dy1)
  let c0 := vc0 va vb iyimin iyi
  let c1 := vc1 vb iyimax iyi
  let v0 := va.rd iyi
  let v1 := va.rd (iyi + 1)
  let a0 := add (sub (mul vtwo (cube mu)) (mul vthree (sq mu))) vone
  let a1 := add (sub (cube mu) (mul vtwo (sq mu))) mu
  let a2 := sub (cube mu) (sq mu)
  let a3 := add (mul (some (-2)) (cube mu)) (mul vthree (sq mu))
  let wp : V := some ((1 + bias) * (1 - tension) / 2)
  let wm : V := some ((1 - bias) * (1 - tension) / 2)
  let t := storeI g (mul a0 v0)
  let t := storeI g (add t (mul a1 (add (mul (sub v0 c0) wp) (mul (sub v1 v0) wm))))
  let t := storeI g (add t (mul a2 (add (mul (sub v1 v0) wp) (mul (sub c1 v1) wm))))
  storeI g (add t (mul a3 v1))

/-- `hermit1d(vari, yi, yo, bias, tension)` for integer data, xoa/interp.py:295-391 -/
def hermit1dI (g : Int) (vari yi yo : Mat) (bias tension : ℚ) : Mat := mkOutI g vari yo fun ix =>
  chRow (yi.row (rowIdx yi.nx ix)) (yo.row (rowIdx yo.nx ix)) (hermitWI g bias tension (vari.row ix) (vari.row (rowIdx vari.nx ix)))

end Xoa
