import Verif.Rounding
import Verif.Interp2d

/-!
# `cell2relloc` in floating-point arithmetic (xoa/interp.py:583-646)

The same program as in `Verif.Interp2d`, with the result of each operation rounded by `fl` and the square root `sq` of the machine. The flag `fastmath=True` of numba, which lets the compiler
reorder operations, is not modelled; the operations are those of the source, from left to right.
-/

namespace Xoa

/-- the four corners of a cell whose coordinates are rational, which is the case of all the floating-point numbers -/
structure CellQ where
  x1 : ℚ
  x2 : ℚ
  x3 : ℚ
  x4 : ℚ
  y1 : ℚ
  y2 : ℚ
  y3 : ℚ
  y4 : ℚ

/-- the coefficients `a`, ..., `f`, `xx` and `yy` -/
structure CoefF where
  a : ℚ
  b : ℚ
  c : ℚ
  d : ℚ
  e : ℚ
  f : ℚ
  xx : ℚ
  yy : ℚ

/-- xoa/interp.py:605-615 -/
def coefF (fl : ℚ → ℚ) (k : CellQ) (x y : ℚ) : CoefF :=
  ⟨fl (k.x4 - k.x1), fl (k.x2 - k.x1), fl (fl (fl (k.x3 - k.x4) - k.x2) + k.x1),
   fl (k.y4 - k.y1), fl (k.y2 - k.y1), fl (fl (fl (k.y3 - k.y4) - k.y2) + k.y1), fl (x - k.x1), fl (y - k.y1)⟩

/-- `AA`, xoa/interp.py:616 -/
def CoefF.AA (fl : ℚ → ℚ) (k : CoefF) : ℚ := fl (fl (k.c * k.d) - fl (k.a * k.f))
/-- `BB`, xoa/interp.py:617 -/
def CoefF.BB (fl : ℚ → ℚ) (k : CoefF) : ℚ := fl (fl (fl (fl (-k.c * k.yy) + fl (k.b * k.d)) + fl (k.xx * k.f)) - fl (k.a * k.e))
/-- `CC`, xoa/interp.py:618 -/
def CoefF.CC (fl : ℚ → ℚ) (k : CoefF) : ℚ := fl (fl (-k.yy * k.b) + fl (k.e * k.xx))
/-- `DD`, xoa/interp.py:623 -/
def CoefF.DD (fl : ℚ → ℚ) (k : CoefF) : ℚ := fl (fl (k.BB fl * k.BB fl) - fl (fl (4 * k.AA fl) * k.CC fl))

/-- `small`, xoa/interp.py:603 -/
def smallF : ℚ := 2 / 2 ^ 52

/-- a rounded division under numba's default error model -/
def divFl (fl : ℚ → ℚ) (u v : ℚ) : Except LocErr ℚ := if v = 0 then .error .zeroDivision else .ok (fl (u / v))

/-- the roots `p1, p2`, xoa/interp.py:619-626, where `s` is the square root of `DD`; `none` when it is NaN -/
def CoefF.roots (fl : ℚ → ℚ) (k : CoefF) (s : ℚ) : Except LocErr (Option (ℚ × ℚ)) :=
  if |k.AA fl| < smallF then (divFl fl (-k.CC fl) (k.BB fl)).map fun p => some (p, p)
  else if k.DD fl < 0 then .ok none
  else (divFl fl (fl (-k.BB fl - s)) (fl (2 * k.AA fl))).bind fun p1 => (divFl fl (fl (-k.BB fl + s)) (fl (2 * k.AA fl))).map fun p2 => some (p1, p2)

/-- `q` from `p`, xoa/interp.py:629-632 and 636-639 -/
def CoefF.q (fl : ℚ → ℚ) (k : CoefF) (p : ℚ) : Except LocErr ℚ :=
  if |fl (k.b + fl (k.c * p))| > smallF then divFl fl (fl (k.xx - fl (k.a * p))) (fl (k.b + fl (k.c * p)))
  else divFl fl (fl (k.yy - fl (k.d * p))) (fl (k.e + fl (k.f * p)))

/-- the selection of one of the two solutions, xoa/interp.py:628-644 -/
def CoefF.select (fl : ℚ → ℚ) (k : CoefF) (p1 p2 : ℚ) : Except LocErr (ℚ × ℚ) :=
  (k.q fl p1).bind fun q1 => if p1 < 0 ∨ p1 > 1 ∨ q1 < 0 ∨ q1 > 1 then (k.q fl p2).map fun q2 => (p2, q2) else .ok (p1, q1)

/-- `cell2relloc`, xoa/interp.py:583-646, on values that are not NaN -/
def cell2rellocF (fl sq : ℚ → ℚ) (cell : CellQ) (x y : ℚ) : Except LocErr (Option (ℚ × ℚ)) :=
  ((coefF fl cell x y).roots fl (sq ((coefF fl cell x y).DD fl))).bind fun r =>
    r.elim (.ok none) fun pp => ((coefF fl cell x y).select fl pp.1 pp.2).map some

end Xoa
