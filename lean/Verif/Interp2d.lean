import Mathlib.Analysis.SpecialFunctions.Trigonometric.Inverse
import Mathlib.Analysis.Real.Sqrt

/-!
# Model of the 2-D location routines of xoa/interp.py (lines 519-736)

Numbers are real numbers; `none` stands for NaN. The routines are compiled by numba with its
default error model, where a division by zero raises `ZeroDivisionError` and where `math.sqrt`
and `math.asin` give NaN outside their domain. The flag `fastmath=True`, which lets the compiler
reorder operations and ignore NaN, is not modelled.
-/

namespace Xoa

/-- `math.sqrt` under numba: NaN for a negative argument -/
noncomputable def sqrtF (x : ℝ) : Option ℝ := if x < 0 then none else some (Real.sqrt x)

/-- `math.asin` under numba: NaN outside [-1, 1] -/
noncomputable def asinF (x : ℝ) : Option ℝ := if x < -1 ∨ 1 < x then none else some (Real.arcsin x)

/-- `deg2rad = np.pi / 180.`, xoa/interp.py:541 -/
noncomputable def deg2rad : ℝ := Real.pi / 180

/-- the value under the square root in `haversine`, xoa/interp.py:542-544 -/
noncomputable def havArg (lon0 lat0 lon1 lat1 : ℝ) : ℝ :=
  Real.sin (deg2rad * (lat0 - lat1) * (1 / 2)) ^ 2 +
    Real.cos (deg2rad * lat0) * Real.cos (deg2rad * lat1) * Real.sin (deg2rad * (lon0 - lon1) * (1 / 2)) ^ 2

/-- `haversine`, xoa/interp.py:521-546 -/
noncomputable def haversine (lon0 lat0 lon1 lat1 : ℝ) : Option ℝ :=
  (sqrtF (havArg lon0 lat0 lon1 lat1)).bind fun r => (asinF r).map fun s => 2 * s

/-- `haversine` of values that may be NaN: NaN as soon as one of them is -/
noncomputable def haversineN (lon0 lat0 lon1 lat1 : Option ℝ) : Option ℝ :=
  lon0.bind fun a => lat0.bind fun b => lon1.bind fun c => lat1.bind fun d => haversine a b c d

/-- a curvilinear grid: two arrays of shape `(ny, nx)`, indexed `[j, i]` -/
structure Grid2 where
  ny : Nat
  nx : Nat
  lon : Nat → Nat → Option ℝ
  lat : Nat → Nat → Option ℝ

inductive LocErr
  | unbound  -- `i, j` are read although they were never assigned: `UnboundLocalError` in Python, an undefined value when compiled by numba
  | zeroDivision
  deriving DecidableEq, Repr

/-- the variables of the loops of `closest2d`: `(i, j)` (unbound at first) and `mindist` -/
abbrev ClosestState := Option (Nat × Nat) × ℝ

open Classical in
/-- the body of the inner loop of `closest2d`, xoa/interp.py:575-579 -/
noncomputable def closestStep (g : Grid2) (xo yo : Option ℝ) (it : Nat) (s : ClosestState) (jt : Nat) : ClosestState :=
  (haversineN xo yo (g.lon jt it) (g.lat jt it)).elim s fun dist => if dist < s.2 then (some (it, jt), dist) else s

/-- `closest2d`, xoa/interp.py:549-580: the pair `(i, j)` -/
noncomputable def closest2d (g : Grid2) (xo yo : Option ℝ) : Except LocErr (Nat × Nat) :=
  let s := (List.range g.nx).foldl (fun s it => (List.range g.ny).foldl (closestStep g xo yo it) s) (none, Real.pi)
  s.1.elim (.error .unbound) .ok

/-- `np.finfo(np.float64).eps` -/
noncomputable def epsF : ℝ := 1 / 2 ^ 52

/-- the four corners of a cell: 1 lower left, 2 upper left, 3 upper right, 4 lower right -/
structure Cell where
  x1 : ℝ
  x2 : ℝ
  x3 : ℝ
  x4 : ℝ
  y1 : ℝ
  y2 : ℝ
  y3 : ℝ
  y4 : ℝ

/-- a division under numba's default error model -/
noncomputable def divF (u v : ℝ) : Except LocErr ℝ := if v = 0 then .error .zeroDivision else .ok (u / v)

/-- the roots `p1, p2`, xoa/interp.py:606-625; `none` when the square root is NaN -/
noncomputable def cellRoots (AA BB CC : ℝ) : Except LocErr (Option (ℝ × ℝ)) :=
  if |AA| < 2 * epsF then (divF (-CC) BB).map fun p => some (p, p)
  else .ok ((sqrtF (BB ^ 2 - 4 * AA * CC)).map fun sDD => ((-BB - sDD) / (2 * AA), (-BB + sDD) / (2 * AA)))

/-- `q` from `p`, xoa/interp.py:628-631 and 635-638 -/
noncomputable def cellQ (a b c d e f xx yy p : ℝ) : Except LocErr ℝ :=
  if |b + c * p| > 2 * epsF then divF (xx - a * p) (b + c * p) else divF (yy - d * p) (e + f * p)

open Classical in
/-- the selection of one of the two solutions, xoa/interp.py:627-644 -/
noncomputable def cellSelect (a b c d e f xx yy p1 p2 : ℝ) : Except LocErr (ℝ × ℝ) :=
  (cellQ a b c d e f xx yy p1).bind fun q1 =>
    if p1 < 0 ∨ p1 > 1 ∨ q1 < 0 ∨ q1 > 1 then (cellQ a b c d e f xx yy p2).map fun q2 => (p2, q2) else .ok (p1, q1)

/-- `cell2relloc`, xoa/interp.py:583-646, on values that are not NaN. The result `none` is the
pair (NaN, NaN): with `p1` NaN both comparisons of lines 628 and 634 are false and `q1` is NaN. -/
noncomputable def cell2relloc (k : Cell) (x y : ℝ) : Except LocErr (Option (ℝ × ℝ)) :=
  let a := k.x4 - k.x1
  let b := k.x2 - k.x1
  let c := k.x3 - k.x4 - k.x2 + k.x1
  let d := k.y4 - k.y1
  let e := k.y2 - k.y1
  let f := k.y3 - k.y4 - k.y2 + k.y1
  let yy := y - k.y1
  let xx := x - k.x1
  let AA := c * d - a * f
  let BB := -c * yy + b * d + xx * f - a * e
  let CC := -yy * b + e * xx
  (cellRoots AA BB CC).bind fun r =>
    r.elim (.ok none) fun pp => (cellSelect a b c d e f xx yy pp.1 pp.2).map some

/-- the corners of the cell `(j, i)`, xoa/interp.py:687-689; `none` when one of them is NaN -/
def Grid2.cell (g : Grid2) (j i : Nat) : Option Cell :=
  (g.lon j i).bind fun x1 => (g.lon (j + 1) i).bind fun x2 => (g.lon (j + 1) (i + 1)).bind fun x3 => (g.lon j (i + 1)).bind fun x4 =>
  (g.lat j i).bind fun y1 => (g.lat (j + 1) i).bind fun y2 => (g.lat (j + 1) (i + 1)).bind fun y3 => (g.lat j (i + 1)).map fun y4 =>
    ⟨x1, x2, x3, x4, y1, y2, y3, y4⟩

/-- the call of `cell2relloc` for the cell `(j, i)`, xoa/interp.py:686-690. With a NaN corner `AA`,
hence `p` and `q`, are NaN; with a NaN target `BB` and `CC` are; in both cases no division has a
zero divisor. -/
noncomputable def cellLoc (g : Grid2) (xo yo : Option ℝ) (j i : Nat) : Except LocErr (Option (ℝ × ℝ)) :=
  (g.cell j i).elim (.ok none) fun k => xo.elim (.ok none) fun x => yo.elim (.ok none) fun y => cell2relloc k x y

open Classical in
/-- the test of xoa/interp.py:693-694 -/
noncomputable def inCell (ab : ℝ × ℝ) : Bool :=
  decide (ab.1 ≥ 0 - epsF ∧ ab.1 ≤ 1 + epsF ∧ ab.2 ≥ 0 - epsF ∧ ab.2 ≤ 1 + epsF)

/-- `range(lo, hi)` -/
def locRange (lo hi : Int) : List Nat := (List.range (hi - lo).toNat).map fun k => lo.toNat + k

/-- the inner loop of `grid2relloc` on `j`, xoa/interp.py:683-699; `none` when it ends normally -/
noncomputable def relInner (g : Grid2) (xo yo : Option ℝ) (i : Nat) : List Nat → Except LocErr (Option (ℝ × ℝ))
  | [] => .ok none
  | j :: js => (cellLoc g xo yo j i).bind fun r =>
      r.elim (relInner g xo yo i js) fun ab =>
        if inCell ab then .ok (some ((i : ℝ) + ab.1, (j : ℝ) + ab.2)) else relInner g xo yo i js

/-- the outer loop of `grid2relloc` on `i`, xoa/interp.py:682-699 -/
noncomputable def relOuter (g : Grid2) (xo yo : Option ℝ) (js : List Nat) : List Nat → Except LocErr (Option (ℝ × ℝ))
  | [] => .ok none
  | i :: is => (relInner g xo yo i js).bind fun r => r.elim (relOuter g xo yo js is) fun pq => .ok (some pq)

/-- `grid2relloc`, xoa/interp.py:649-701 -/
noncomputable def grid2relloc (g : Grid2) (xo yo : Option ℝ) : Except LocErr (ℝ × ℝ) :=
  (closest2d g xo yo).bind fun c =>
    (relOuter g xo yo (locRange (max ((c.2 : Int) - 1) 0) (min (c.2 : Int) ((g.ny : Int) - 2)))
      (locRange (max ((c.1 : Int) - 1) 0) (min (c.1 : Int) ((g.nx : Int) - 2)))).map fun r => r.getD (-1, -1)

/-- `grid2rellocs`, xoa/interp.py:704-736: the points one by one; the first error ends the loop -/
noncomputable def grid2rellocs (g : Grid2) (pts : List (Option ℝ × Option ℝ)) : Except LocErr (List (ℝ × ℝ)) :=
  pts.mapM fun p => grid2relloc g p.1 p.2

end Xoa
