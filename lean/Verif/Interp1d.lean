import Verif.Num

/-!
# Model of the 1-D routines of `xoa/interp.py`

Loops are recursions over the list of loop indices; the loop-carried variables
(`iyomin`, the output row) are arguments; `break` returns, `continue` recurses.
`numba` does not check bounds: reads outside an array return arbitrary memory
(`Row.get`/`Mat.get` outside the bounds).
-/

namespace Xoa
open V

/-! ## get_iminmax -/

/-- loop of `get_iminmax`, xoa/interp.py:40-50 -/
def iminmaxLoop (d : Row) : List Int → Int → Int → Int × Int
  | [], imin, imax => (imin, imax)
  | i :: rest, imin, imax =>
    -- :44-45
    let imin' := if imin < 0 ∧ isnan (d.rd i) = false then i else imin
    -- :46-47
    let imax' := if imax < 0 ∧ isnan (d.rd ((d.n : Int) - 1 - i)) = false
      then (d.n : Int) - 1 - i else imax
    -- :48-49
    if imax' > 0 ∧ imin' > 0 then (imin', imax')
    else iminmaxLoop d rest imin' imax'

/-- `get_iminmax(data1d)`, xoa/interp.py:25-50 -/
def getIminmax (d : Row) : Int × Int := iminmaxLoop d (pyRange 0 d.n) (-1) (-1)

/-! ## The scan shared by `nearest1d` and `linear1d`

The two functions have the same nested loops (xoa/interp.py:92-120 and
xoa/interp.py:164-193), except for the last branches of the inner loop, which are
passed here as `w`: given `iyi`, `dy0`, `dy1`, either `some v` (write `v`) or `none`
(no branch taken). -/

/-- inner loop on output points, xoa/interp.py:103-120 (nearest), 175-193 (linear).
Returns the new `iyomin` and the output row. -/
def nlInner (yi yo : Row) (w : Int → V → V → Option V) (iyi : Int) :
    List Int → Int → (Int → V) → Int × (Int → V)
  | [], iyomin, out => (iyomin, out)
  | iyo :: rest, iyomin, out =>
    let dy0 := sub (yo.rd iyo) (yi.rd iyi)
    let dy1 := sub (yi.rd (iyi + 1)) (yo.rd iyo)
    if lt dy1 (some 0) then (iyomin, out)                              -- break
    else if lt dy0 (some 0) then nlInner yi yo w iyi rest (iyo + 1) out  -- iyomin = iyo+1
    else match w iyi dy0 dy1 with
      | some v => nlInner yi yo w iyi rest iyomin (wr1 yo.n out iyo v)
      | none => nlInner yi yo w iyi rest iyomin out

/-- outer loop on input points, xoa/interp.py:94-100 (nearest), 166-172 (linear) -/
def nlOuter (yi yo : Row) (w : Int → V → V → Option V) (iyomax : Int) :
    List Int → Int → (Int → V) → (Int → V)
  | [], _, out => out
  | iyi :: rest, iyomin, out =>
    if lt (yi.rd (iyi + 1)) (yo.rd iyomin) then nlOuter yi yo w iyomax rest iyomin out  -- continue
    else if lt (yo.rd iyomax) (yi.rd iyi) then out                                      -- break
    else
      let r := nlInner yi yo w iyi (pyRange iyomin (iyomax + 1)) iyomin out
      nlOuter yi yo w iyomax rest r.1 r.2

/-- body of one iteration of the row loop, xoa/interp.py:92-120, 164-193 -/
def nlRow (yi yo : Row) (w : Int → V → V → Option V) (out : Int → V) : Int → V :=
  let i := getIminmax yi
  let o := getIminmax yo
  nlOuter yi yo w o.2 (pyRange i.1 i.2) o.1 out

/-- last branches of `nearest1d`, xoa/interp.py:117-120 -/
def nearestW (v : Row) (iyi : Int) (dy0 dy1 : V) : Option V :=
  if le dy0 dy1 then some (v.rd iyi) else some (v.rd (iyi + 1))

/-- last branch of `linear1d`, xoa/interp.py:189-193 -/
def linearW (v : Row) (iyi : Int) (dy0 dy1 : V) : Option V :=
  if le (some 0) dy0 && le (some 0) dy1 then
    some (div (add (mul (v.rd iyi) dy1) (mul (v.rd (iyi + 1)) dy0)) (add dy0 dy1))
  else none

/-! ## The scan shared by `cubic1d` and `hermit1d` -/

/-- inner loop, xoa/interp.py:258-290 (cubic), 347-389 (hermit): the range goes up to
`nyo`, there is no "below" branch and `iyomin` is set to the current point when inside. -/
def chInner (yi yo : Row) (w : Int → V → V → V) (iyi : Int) :
    List Int → Int → (Int → V) → Int × (Int → V)
  | [], iyomin, out => (iyomin, out)
  | iyo :: rest, iyomin, out =>
    let dy0 := sub (yo.rd iyo) (yi.rd iyi)
    let dy1 := sub (yi.rd (iyi + 1)) (yo.rd iyo)
    if lt dy1 (some 0) then (iyomin, out)
    else if le (some 0) dy0 && le (some 0) dy1 then
      chInner yi yo w iyi rest iyo (wr1 yo.n out iyo (w iyi dy0 dy1))
    else chInner yi yo w iyi rest iyomin out

/-- outer loop, xoa/interp.py:249-255 (cubic), 338-344 (hermit) -/
def chOuter (yi yo : Row) (w : Int → V → V → V) (iyomax : Int) :
    List Int → Int → (Int → V) → (Int → V)
  | [], _, out => out
  | iyi :: rest, iyomin, out =>
    if lt (yi.rd (iyi + 1)) (yo.rd iyomin) then chOuter yi yo w iyomax rest iyomin out
    else if lt (yo.rd iyomax) (yi.rd iyi) then out
    else
      let r := chInner yi yo w iyi (pyRange iyomin yo.n) iyomin out
      chOuter yi yo w iyomax rest r.1 r.2

/-- body of one row iteration; `w` also depends on `iyimin`, `iyimax` -/
def chRow (yi yo : Row) (w : Int → Int → Int → V → V → V) (out : Int → V) : Int → V :=
  let i := getIminmax yi
  let o := getIminmax yo
  chOuter yi yo (w i.1 i.2) o.2 (pyRange i.1 i.2) o.1 out

def vtwo : V := some 2
def vthree : V := some 3
def vone : V := some 1
def sq (m : V) : V := mul m m
def cube (m : V) : V := mul m (mul m m)

/-- lower extrapolated/neighbour value `vc0`, xoa/interp.py:274-277, 363-366.
`va` is `vari[ix]`, `vb` is `vari[ixi]`: the code mixes the two. -/
def vc0 (va vb : Row) (iyimin iyi : Int) : V :=
  if iyi = iyimin then sub (mul vtwo (va.rd iyi)) (va.rd (iyi + 1)) else vb.rd (iyi - 1)

/-- upper extrapolated/neighbour value `vc1`, xoa/interp.py:278-281, 367-370 -/
def vc1 (vb : Row) (iyimax iyi : Int) : V :=
  if iyi = iyimax - 1 then sub (mul vtwo (vb.rd (iyi + 1))) (vb.rd iyi) else vb.rd (iyi + 2)

/-- value written by `cubic1d`, xoa/interp.py:271, 283-290 -/
def cubicW (va vb : Row) (iyimin iyimax iyi : Int) (dy0 dy1 : V) : V :=
  let mu := div dy0 (add dy0 dy1)
  let c0 := vc0 va vb iyimin iyi
  let c1 := vc1 vb iyimax iyi
  let t := add (sub (sub c1 (va.rd (iyi + 1))) c0) (va.rd iyi)
  let t2 := add (mul (cube mu) t) (mul (sq mu) (sub (sub c0 (va.rd iyi)) t))
  let t3 := add t2 (mul mu (sub (va.rd (iyi + 1)) c0))
  add t3 (va.rd iyi)

/-- value written by `hermit1d`, xoa/interp.py:372-389 -/
def hermitW (bias tension : ℚ) (va vb : Row) (iyimin iyimax iyi : Int) (dy0 dy1 : V) : V :=
  let mu := div dy0 (add dy0 dy1)
  let c0 := vc0 va vb iyimin iyi
  let c1 := vc1 vb iyimax iyi
  let v0 := va.rd iyi
  let v1 := va.rd (iyi + 1)
  let a0 := add (sub (mul vtwo (cube mu)) (mul vthree (sq mu))) vone
  let a1 := add (sub (cube mu) (mul vtwo (sq mu))) mu
  let a2 := sub (cube mu) (sq mu)
  let a3 := add (mul (some (-2)) (cube mu)) (mul vthree (sq mu))
  let wp : V := some ((1 + bias) * (1 - tension) / 2)
  let wm : V := some ((1 - bias) * (1 - tension) / 2)
  let t := mul a0 v0
  let t := add t (mul a1 (add (mul (sub v0 c0) wp) (mul (sub v1 v0) wm)))
  let t := add t (mul a2 (add (mul (sub v1 v0) wp) (mul (sub c1 v1) wm)))
  add t (mul a3 v1)

/-! ## Row loops -/

/-- `min(n-1, ix % n)`, xoa/interp.py:87-89 and the same lines of the other routines -/
def rowIdx (n : Nat) (ix : Int) : Int := min ((n : Int) - 1) (ix % n)

/-- one iteration of a row loop: replaces row `ix` of the output -/
def updRow (varo : Int → Int → V) (ix : Int) (r : Int → V) : Int → Int → V :=
  fun i => if i = ix then r else varo i

/-- the row loop run in the order `sched` (`numba.prange` is `sched = range(nx)` in a
sequential run; a parallel run may use any order, see `Interp1dSchedProps`) -/
def rowLoop (body : Int → (Int → V) → (Int → V)) (sched : List Int)
    (varo : Int → Int → V) : Int → Int → V :=
  sched.foldl (fun varo ix => updRow varo ix (body ix (varo ix))) varo

/-- `np.full((nx, nyo), np.nan)` -/
def nanMat : Int → Int → V := fun _ _ => none

/-- iteration body of `nearest1d`, xoa/interp.py:84-120 -/
def nearestBody (vari yi yo : Mat) (ix : Int) : (Int → V) → (Int → V) :=
  nlRow (yi.row (rowIdx yi.nx ix)) (yo.row (rowIdx yo.nx ix))
    (nearestW (vari.row (rowIdx vari.nx ix)))

/-- iteration body of `linear1d`, xoa/interp.py:156-193 -/
def linearBody (vari yi yo : Mat) (ix : Int) : (Int → V) → (Int → V) :=
  nlRow (yi.row (rowIdx yi.nx ix)) (yo.row (rowIdx yo.nx ix))
    (linearW (vari.row (rowIdx vari.nx ix)))

/-- iteration body of `cubic1d`, xoa/interp.py:239-290; reads both `vari[ix]` and `vari[ixi]` -/
def cubicBody (vari yi yo : Mat) (ix : Int) : (Int → V) → (Int → V) :=
  chRow (yi.row (rowIdx yi.nx ix)) (yo.row (rowIdx yo.nx ix))
    (cubicW (vari.row ix) (vari.row (rowIdx vari.nx ix)))

/-- iteration body of `hermit1d`, xoa/interp.py:328-389 -/
def hermitBody (bias tension : ℚ) (vari yi yo : Mat) (ix : Int) : (Int → V) → (Int → V) :=
  chRow (yi.row (rowIdx yi.nx ix)) (yo.row (rowIdx yo.nx ix))
    (hermitW bias tension (vari.row ix) (vari.row (rowIdx vari.nx ix)))

/-- an output array from its row contents -/
def mkOut (vari yo : Mat) (body : Int → (Int → V) → (Int → V)) : Mat :=
  ⟨max vari.nx yo.nx, yo.ny, rowLoop body (pyRange 0 (max vari.nx yo.nx : Nat)) nanMat⟩

/-- `nearest1d(vari, yi, yo)`, xoa/interp.py:53-122 -/
def nearest1d (vari yi yo : Mat) : Mat := mkOut vari yo (nearestBody vari yi yo)
/-- `linear1d(vari, yi, yo)`, xoa/interp.py:125-205 (`bias`, `tension` are unused) -/
def linear1d (vari yi yo : Mat) : Mat := mkOut vari yo (linearBody vari yi yo)
/-- `cubic1d(vari, yi, yo)`, xoa/interp.py:208-292 -/
def cubic1d (vari yi yo : Mat) : Mat := mkOut vari yo (cubicBody vari yi yo)
/-- `hermit1d(vari, yi, yo, bias, tension)`, xoa/interp.py:295-391 -/
def hermit1d (vari yi yo : Mat) (bias tension : ℚ) : Mat :=
  mkOut vari yo (hermitBody bias tension vari yi yo)

/-! ## extrap1d -/

/-- extrapolation modes of `extrap1d` (strings "no", "top", "bottom", "both"; any other
value behaves as `other`: xoa/interp.py:409,420-423 compare strings) -/
inductive Extrap | no | top | bottom | both | other
  deriving DecidableEq, Repr

/-- body of one row of `extrap1d`, xoa/interp.py:416-423.  `v` is `vari[ix]` and `out`
is `varo[ix]`, a copy of it. -/
def extrapRow (mode : Extrap) (v : Row) (out : Int → V) : Int → V :=
  let r := getIminmax v
  if r.1 = -1 then out
  else
    -- varo[ix, :iybot] = varo[ix, iybot]
    let out := if mode = .both ∨ mode = .bottom then
      (fun i => if 0 ≤ i ∧ i < r.1 then out r.1 else out i) else out
    -- varo[ix, iytop+1:] = varo[ix, iytop]
    if mode = .both ∨ mode = .top then
      (fun i => if r.2 + 1 ≤ i ∧ i < v.n then out r.2 else out i) else out

/-- `extrap1d(vari, extrap)`, xoa/interp.py:394-425 -/
def extrap1d (vari : Mat) (mode : Extrap) : Mat :=
  if mode = .no then vari
  else ⟨vari.nx, vari.ny,
    rowLoop (fun ix => extrapRow mode (vari.row ix)) (pyRange 0 vari.nx) vari.get⟩

end Xoa
