import Verif.Rounding
import Verif.Interp1d

/-!
# The 1-D interpolations of `xoa/interp.py` in floating-point arithmetic

The same functions as in `Verif/Interp1d.lean`, with the result of each operation rounded by `fl`. The loops are written again because the differences of
coordinates that they compare are rounded too. `get_iminmax`, the comparisons of coordinates and the copies of values round nothing.
-/

namespace Xoa
open V

/-- the rounded value -/
def V.rd (fl : ℚ → ℚ) (x : V) : V := x.map fl

/-- `a + b` -/
def flAdd (fl : ℚ → ℚ) (a b : V) : V := V.rd fl (add a b)
/-- `a - b` -/
def flSub (fl : ℚ → ℚ) (a b : V) : V := V.rd fl (sub a b)
/-- `a * b` -/
def flMul (fl : ℚ → ℚ) (a b : V) : V := V.rd fl (mul a b)
/-- `a / b` -/
def flDiv (fl : ℚ → ℚ) (a b : V) : V := V.rd fl (div a b)

/-- inner loop of `nearest1d` and `linear1d`, xoa/interp.py:103-120 and 175-193 -/
def nlInnerF (fl : ℚ → ℚ) (yi yo : Row) (w : Int → V → V → Option V) (iyi : Int) : List Int → Int → (Int → V) → Int × (Int → V)
  | [], iyomin, out => (iyomin, out)
  | iyo :: rest, iyomin, out =>
    let dy0 := flSub fl (yo.rd iyo) (yi.rd iyi)
    let dy1 := flSub fl (yi.rd (iyi + 1)) (yo.rd iyo)
    if lt dy1 (some 0) then (iyomin, out)
    else if lt dy0 (some 0) then nlInnerF fl yi yo w iyi rest (iyo + 1) out
    else match w iyi dy0 dy1 with
      | some v => nlInnerF fl yi yo w iyi rest iyomin (wr1 yo.n out iyo v)
      | none => nlInnerF fl yi yo w iyi rest iyomin out

/-- outer loop of `nearest1d` and `linear1d`, xoa/interp.py:94-100 and 166-172 -/
def nlOuterF (fl : ℚ → ℚ) (yi yo : Row) (w : Int → V → V → Option V) (iyomax : Int) : List Int → Int → (Int → V) → (Int → V)
  | [], _, out => out
  | iyi :: rest, iyomin, out =>
    if lt (yi.rd (iyi + 1)) (yo.rd iyomin) then nlOuterF fl yi yo w iyomax rest iyomin out
    else if lt (yo.rd iyomax) (yi.rd iyi) then out
    else
      let r := nlInnerF fl yi yo w iyi (pyRange iyomin (iyomax + 1)) iyomin out
      nlOuterF fl yi yo w iyomax rest r.1 r.2

/-- one row of `nearest1d` and `linear1d`, xoa/interp.py:92-120, 164-193 -/
def nlRowF (fl : ℚ → ℚ) (yi yo : Row) (w : Int → V → V → Option V) (out : Int → V) : Int → V :=
  nlOuterF fl yi yo w (getIminmax yo).2 (pyRange (getIminmax yi).1 (getIminmax yi).2) (getIminmax yo).1 out

/-- last branch of `linear1d`, xoa/interp.py:189-193 -/
def linearWF (fl : ℚ → ℚ) (v : Row) (iyi : Int) (dy0 dy1 : V) : Option V :=
  if le (some 0) dy0 && le (some 0) dy1 then
    some (flDiv fl (flAdd fl (flMul fl (v.rd iyi) dy1) (flMul fl (v.rd (iyi + 1)) dy0)) (flAdd fl dy0 dy1))
  else none

/-- inner loop of `cubic1d` and `hermit1d`, xoa/interp.py:258-290, 347-389 -/
def chInnerF (fl : ℚ → ℚ) (yi yo : Row) (w : Int → V → V → V) (iyi : Int) : List Int → Int → (Int → V) → Int × (Int → V)
  | [], iyomin, out => (iyomin, out)
  | iyo :: rest, iyomin, out =>
    let dy0 := flSub fl (yo.rd iyo) (yi.rd iyi)
    let dy1 := flSub fl (yi.rd (iyi + 1)) (yo.rd iyo)
    if lt dy1 (some 0) then (iyomin, out)
    else if le (some 0) dy0 && le (some 0) dy1 then chInnerF fl yi yo w iyi rest iyo (wr1 yo.n out iyo (w iyi dy0 dy1))
    else chInnerF fl yi yo w iyi rest iyomin out

/-- outer loop of `cubic1d` and `hermit1d`, xoa/interp.py:249-255, 338-344 -/
def chOuterF (fl : ℚ → ℚ) (yi yo : Row) (w : Int → V → V → V) (iyomax : Int) : List Int → Int → (Int → V) → (Int → V)
  | [], _, out => out
  | iyi :: rest, iyomin, out =>
    if lt (yi.rd (iyi + 1)) (yo.rd iyomin) then chOuterF fl yi yo w iyomax rest iyomin out
    else if lt (yo.rd iyomax) (yi.rd iyi) then out
    else
      let r := chInnerF fl yi yo w iyi (pyRange iyomin yo.n) iyomin out
      chOuterF fl yi yo w iyomax rest r.1 r.2

/-- one row of `cubic1d` and `hermit1d` -/
def chRowF (fl : ℚ → ℚ) (yi yo : Row) (w : Int → Int → Int → V → V → V) (out : Int → V) : Int → V :=
  chOuterF fl yi yo (w (getIminmax yi).1 (getIminmax yi).2) (getIminmax yo).2 (pyRange (getIminmax yi).1 (getIminmax yi).2) (getIminmax yo).1 out

/-- `mu**2` -/
def sqF (fl : ℚ → ℚ) (m : V) : V := flMul fl m m
/-- `mu**3`: numba makes two products -/
def cubeF (fl : ℚ → ℚ) (m : V) : V := flMul fl m (flMul fl m m)

/-- `vc0`, xoa/interp.py:274-277, 363-366 -/
def vc0F (fl : ℚ → ℚ) (va vb : Row) (iyimin iyi : Int) : V :=
  if iyi = iyimin then flSub fl (flMul fl (some 2) (va.rd iyi)) (va.rd (iyi + 1)) else vb.rd (iyi - 1)

/-- `vc1`, xoa/interp.py:278-281, 367-370 -/
def vc1F (fl : ℚ → ℚ) (vb : Row) (iyimax iyi : Int) : V :=
  if iyi = iyimax - 1 then flSub fl (flMul fl (some 2) (vb.rd (iyi + 1))) (vb.rd iyi) else vb.rd (iyi + 2)

/-- value written by `cubic1d`, xoa/interp.py:271, 283-290 -/
def cubicWF (fl : ℚ → ℚ) (va vb : Row) (iyimin iyimax iyi : Int) (dy0 dy1 : V) : V :=
  let mu := flDiv fl dy0 (flAdd fl dy0 dy1)
  let c0 := vc0F fl va vb iyimin iyi
  let c1 := vc1F fl vb iyimax iyi
  let t := flAdd fl (flSub fl (flSub fl c1 (va.rd (iyi + 1))) c0) (va.rd iyi)
  let t2 := flAdd fl (flMul fl (cubeF fl mu) t) (flMul fl (sqF fl mu) (flSub fl (flSub fl c0 (va.rd iyi)) t))
  let t3 := flAdd fl t2 (flMul fl mu (flSub fl (va.rd (iyi + 1)) c0))
  flAdd fl t3 (va.rd iyi)

/-- `x * (1+bias) * (1-tension) / 2`, xoa/interp.py:379-388 -/
def hermitF (fl : ℚ → ℚ) (b t : ℚ) (x : V) : V := flDiv fl (flMul fl (flMul fl x (some b)) (some t)) (some 2)

/-- value written by `hermit1d`, xoa/interp.py:372-389 -/
def hermitWF (fl : ℚ → ℚ) (bias tension : ℚ) (va vb : Row) (iyimin iyimax iyi : Int) (dy0 dy1 : V) : V :=
  let mu := flDiv fl dy0 (flAdd fl dy0 dy1)
  let c0 := vc0F fl va vb iyimin iyi
  let c1 := vc1F fl vb iyimax iyi
  let v0 := va.rd iyi
  let v1 := va.rd (iyi + 1)
  let a0 := flAdd fl (flSub fl (flMul fl (some 2) (cubeF fl mu)) (flMul fl (some 3) (sqF fl mu))) (some 1)
  let a1 := flAdd fl (flSub fl (cubeF fl mu) (flMul fl (some 2) (sqF fl mu))) mu
  let a2 := flSub fl (cubeF fl mu) (sqF fl mu)
  let a3 := flAdd fl (flMul fl (some (-2)) (cubeF fl mu)) (flMul fl (some 3) (sqF fl mu))
  let bp := fl (1 + bias)
  let bm := fl (1 - bias)
  let tm := fl (1 - tension)
  let t := flMul fl a0 v0
  let t := flAdd fl t (flMul fl a1 (flAdd fl (hermitF fl bp tm (flSub fl v0 c0)) (hermitF fl bm tm (flSub fl v1 v0))))
  let t := flAdd fl t (flMul fl a2 (flAdd fl (hermitF fl bp tm (flSub fl v1 v0)) (hermitF fl bm tm (flSub fl c1 v1))))
  flAdd fl t (flMul fl a3 v1)

/-- `nearest1d(vari, yi, yo)`, xoa/interp.py:53-122 -/
def nearest1dF (fl : ℚ → ℚ) (vari yi yo : Mat) : Mat :=
  mkOut vari yo fun ix => nlRowF fl (yi.row (rowIdx yi.nx ix)) (yo.row (rowIdx yo.nx ix)) (nearestW (vari.row (rowIdx vari.nx ix)))

/-- `linear1d(vari, yi, yo)`, xoa/interp.py:125-205 -/
def linear1dF (fl : ℚ → ℚ) (vari yi yo : Mat) : Mat :=
  mkOut vari yo fun ix => nlRowF fl (yi.row (rowIdx yi.nx ix)) (yo.row (rowIdx yo.nx ix)) (linearWF fl (vari.row (rowIdx vari.nx ix)))

/-- `cubic1d(vari, yi, yo)`, xoa/interp.py:208-292 -/
def cubic1dF (fl : ℚ → ℚ) (vari yi yo : Mat) : Mat :=
  mkOut vari yo fun ix => chRowF fl (yi.row (rowIdx yi.nx ix)) (yo.row (rowIdx yo.nx ix)) (cubicWF fl (vari.row ix) (vari.row (rowIdx vari.nx ix)))

/-- `hermit1d(vari, yi, yo, bias, tension)`, xoa/interp.py:295-391 -/
def hermit1dF (fl : ℚ → ℚ) (vari yi yo : Mat) (bias tension : ℚ) : Mat :=
  mkOut vari yo fun ix => chRowF fl (yi.row (rowIdx yi.nx ix)) (yo.row (rowIdx yo.nx ix))
    (hermitWF fl bias tension (vari.row ix) (vari.row (rowIdx vari.nx ix)))

end Xoa
