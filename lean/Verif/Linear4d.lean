import Verif.Interp2d

/-! # Interpolation of gridded data to random positions (xoa/interp.py:738-956)

The coordinates are real numbers without missing values (the data may have missing values). An exception is an exception,
whatever its class. The weights `a`, `b`, `c` and `d` are computed by the code but no value is ever made of them: the first
access to the depth indices `k[...]`, or to the depths `zi[...]`, which are scalars, raises. So they are not modelled. -/

namespace Xoa

/-- an array of two dimensions -/
structure A2 where
  ny : Nat
  nx : Nat
  val : Nat → Nat → ℝ

/-- all the values of an array -/
def A2.flat (a : A2) : List ℝ := (List.range a.ny).flatMap fun j => (List.range a.nx).map fun i => a.val j i

/-- the arguments that describe the input grid, its data, and their shapes -/
structure Lin4 where
  xxi : A2
  yyi : A2
  /-- shape `(nexz, ntiz, nziz, nyiz, nxiz)` and values of the depths -/
  nexz : Nat
  ntiz : Nat
  nyiz : Nat
  nxiz : Nat
  zzi : List ℝ
  ti : List ℝ
  /-- shape `(nex, nti, nzi, nyi, nxi)` and values of the data -/
  nex : Nat
  nti : Nat
  nzi : Nat
  nyi : Nat
  nxi : Nat
  vi : List (Option ℝ)

/-- an output position: longitude, latitude, depth and time -/
structure Pos4 where
  x : ℝ
  y : ℝ
  z : ℝ
  t : ℝ

/-- what a call gives: an exception, `None` or values -/
inductive L4Out
  | raised
  | none_
  | values (v : List (List (Option ℝ)))

/-- `a.min()`: an exception for an empty array -/
noncomputable def minOf : List ℝ → Option ℝ
  | [] => none
  | x :: l => some (l.foldl min x)

/-- `a.max()` -/
noncomputable def maxOf : List ℝ → Option ℝ
  | [] => none
  | x :: l => some (l.foldl max x)

/-- `vi.min()`: missing if a value is missing, an exception for an empty array -/
noncomputable def minOfData (l : List (Option ℝ)) : Option (Option ℝ) :=
  if l = [] then none else some (if none ∈ l then none else minOf (l.filterMap id))

/-- the bounds of the grid, xoa/interp.py:779-786: the smallest longitude is `vi.min()` -/
structure Bounds4 where
  xmin : Option ℝ
  xmax : ℝ
  ymin : ℝ
  ymax : ℝ
  zmin : ℝ
  zmax : ℝ
  tmin : ℝ
  tmax : ℝ

/-- xoa/interp.py:779-786; `none` is an exception -/
noncomputable def bounds4 (g : Lin4) : Option Bounds4 :=
  (minOfData g.vi).bind fun xmin => (maxOf g.xxi.flat).bind fun xmax =>
  (minOf g.yyi.flat).bind fun ymin => (maxOf g.yyi.flat).bind fun ymax =>
  (minOf g.zzi).bind fun zmin => (maxOf g.zzi).bind fun zmax =>
  (minOf g.ti).bind fun tmin => (maxOf g.ti).bind fun tmax =>
  some ⟨xmin, xmax, ymin, ymax, zmin, zmax, tmin, tmax⟩

/-- `x >= xmin`, false when `xmin` is missing -/
def geMissing (x : ℝ) : Option ℝ → Prop
  | none => False
  | some m => x ≥ m

/-- the test of xoa/interp.py:798-801, after which the point is skipped -/
def insideBox (g : Lin4) (b : Bounds4) (p : Pos4) : Prop :=
  (g.nxi = 1 ∨ (geMissing p.x b.xmin ∧ p.x ≤ b.xmax)) ∧ (g.nyi = 1 ∨ (p.y ≥ b.ymin ∧ p.y ≤ b.ymax)) ∧
  (g.nzi = 1 ∨ (p.z ≥ b.zmin ∧ p.z ≤ b.zmax)) ∧ (g.nti = 1 ∨ (p.t ≥ b.tmin ∧ p.t ≤ b.tmax))

/-- `curved`, xoa/interp.py:787 -/
def Lin4.curved (g : Lin4) : Bool := g.xxi.ny ≠ 1

/-- the assertions, xoa/interp.py:790-794 -/
def Lin4.asserts (g : Lin4) : Bool :=
  (!g.curved || (g.nxi = g.yyi.nx && g.nyi = g.xxi.ny)) && (g.nxiz = 1 || g.nxiz = g.nxi) &&
  (g.nyiz = 1 || g.nyiz = g.nyi) && (g.ntiz = 1 || g.ntiz = g.nti)

/-- `a[i]` exists -/
def idxOk (n : Nat) (i : Int) : Bool := decide (-(n : Int) ≤ i ∧ i < n)

open Classical in
/-- `np.searchsorted(a, x, "right") - 1`, for increasing coordinates -/
noncomputable def searchRight (a : List ℝ) (x : ℝ) : Int := ((a.filter fun v => v ≤ x).length : Int) - 1

open Classical in
/-- one axis of the rectangular case, xoa/interp.py:819-853, and the time axis, :856-872: `false` is an exception.
`n` is the size of the data along the axis and `a` its coordinate. -/
noncomputable def axisOk (n : Nat) (a : List ℝ) (x : ℝ) : Bool :=
  if n = 1 then true
  else if idxOk a.length ((n : Int) - 1) = false then false
  else if a[n - 1]? = some x then true
  else idxOk a.length (searchRight a x) && idxOk a.length (searchRight a x + 1)

/-- the first row of an array -/
def A2.row0 (a : A2) : List ℝ := (List.range a.nx).map fun i => a.val 0 i
/-- the first column of an array -/
def A2.col0 (a : A2) : List ℝ := (List.range a.ny).map fun j => a.val j 0

/-- the grid of the curved case -/
def Lin4.grid2 (g : Lin4) : Grid2 := ⟨g.xxi.ny, g.xxi.nx, fun j i => some (g.xxi.val j i), fun j i => some (g.yyi.val j i)⟩

/-- what happens to a point -/
inductive L4Step
  | skip
  | raised
  | done

/-- the end of a step of the loop, xoa/interp.py:874-956: with several levels the local depths `zi` are summed in a scalar,
whose indexing raises when there is data; with one level the index `k` is a scalar, whose indexing raises when there is
a group of data (`nex // nexz`). -/
def endStep (g : Lin4) : L4Step :=
  if g.nzi ≠ 1 ∧ g.nex ≠ 0 then .raised
  else if g.nexz = 0 then .raised
  else if g.nex / g.nexz = 0 then .done
  else .raised

open Classical in
/-- one point, xoa/interp.py:797-956 -/
noncomputable def pointStep (g : Lin4) (b : Bounds4) (p : Pos4) : L4Step :=
  if insideBox g b p then .skip
  else if g.curved then
    match grid2relloc g.grid2 (some p.x) (some p.y) with
    | .error _ => .raised
    | .ok pq =>
      if pq.1 < 1 ∨ pq.1 > g.nxi ∨ pq.2 < 1 ∨ pq.2 > g.nyi then .skip
      else if axisOk g.nti g.ti p.t then endStep g else .raised
  else if axisOk g.nxi g.xxi.row0 p.x && axisOk g.nyi g.yyi.col0 p.y && axisOk g.nti g.ti p.t then endStep g
  else .raised

/-- the loop on the points, xoa/interp.py:797: the first exception ends it; it ends without `return` -/
noncomputable def pointLoop (g : Lin4) (b : Bounds4) : List Pos4 → L4Out
  | [] => .none_
  | p :: ps => match pointStep g b p with
    | .raised => .raised
    | .skip => pointLoop g b ps
    | .done => pointLoop g b ps

/-- `linear4dto1dxx(xxi, yyi, zzi, ti, vi, xo, yo, zo, to, vo)`, xoa/interp.py:738-956: the argument `vo` is rebound to a
new array, and the function has no `return` -/
noncomputable def linear4dto1dxx (g : Lin4) (pts : List Pos4) : L4Out :=
  match bounds4 g with
  | none => .raised
  | some b => if g.asserts then pointLoop g b pts else .raised

end Xoa
