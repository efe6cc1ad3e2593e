import Verif.Interp1d
import Verif.Cellave

/-!
# The 1-D routines with bound checks

`numba` does not check the indices: a read outside of an array gives what is in memory there, and a write outside of an array changes it. The same programs
are written here with a check at each access, as they run with `NUMBA_BOUNDSCHECK=1`: `none` is an `IndexError`. Negative indices down to `-n` are
accepted, as in Python.
-/

namespace Xoa
open V

/-- `row[i]`, checked -/
def Row.ck (r : Row) (i : Int) : Option V := if -(r.n : Int) ≤ i ∧ i < r.n then some (r.rd i) else none

/-- the row `i` of an array, checked; the routines have no negative index of row -/
def Mat.ckRow (m : Mat) (i : Int) : Option Row := if 0 ≤ i ∧ i < m.nx then some (m.row i) else none

/-- `m[i, j]`, checked -/
def Mat.ck (m : Mat) (i j : Int) : Option V := (m.ckRow i).bind (fun r => r.ck j)

/-- check of the index of a write in a row of `n` elements -/
def ckWrite (n : Nat) (i : Int) : Option Unit := if -(n : Int) ≤ i ∧ i < n then some () else none

/-- loop of `get_iminmax`, xoa/interp.py:43-49: an element is read only when the index is still unknown -/
def iminmaxLoopK (d : Row) : List Int → Int → Int → Option (Int × Int)
  | [], imin, imax => some (imin, imax)
  | i :: rest, imin, imax => do
    let imin' ← (if imin < 0 then (d.ck i).bind (fun v => some (if isnan v = false then i else imin)) else some imin)
    let imax' ← (if imax < 0 then (d.ck ((d.n : Int) - 1 - i)).bind (fun v => some (if isnan v = false then (d.n : Int) - 1 - i else imax)) else some imax)
    if imax' > 0 ∧ imin' > 0 then some (imin', imax') else iminmaxLoopK d rest imin' imax'

/-- `get_iminmax(data1d)`, xoa/interp.py:25-50 -/
def getIminmaxK (d : Row) : Option (Int × Int) := iminmaxLoopK d (pyRange 0 d.n) (-1) (-1)

/-- inner loop of `nearest1d` and `linear1d`, xoa/interp.py:103-120, 175-193 -/
def nlInnerK (yi yo : Row) (w : Int → V → V → Option (Option V)) (iyi : Int) :
    List Int → Int → (Int → V) → Option (Int × (Int → V))
  | [], iyomin, out => some (iyomin, out)
  | iyo :: rest, iyomin, out => do
    let o ← yo.ck iyo
    let a ← yi.ck iyi
    let b ← yi.ck (iyi + 1)
    if lt (sub b o) (some 0) then some (iyomin, out)
    else if lt (sub o a) (some 0) then nlInnerK yi yo w iyi rest (iyo + 1) out
    else do
      let r ← w iyi (sub o a) (sub b o)
      match r with
      | some v => do
        let _ ← ckWrite yo.n iyo
        nlInnerK yi yo w iyi rest iyomin (wr1 yo.n out iyo v)
      | none => nlInnerK yi yo w iyi rest iyomin out

/-- outer loop of `nearest1d` and `linear1d`, xoa/interp.py:94-100, 166-172 -/
def nlOuterK (yi yo : Row) (w : Int → V → V → Option (Option V)) (iyomax : Int) :
    List Int → Int → (Int → V) → Option (Int → V)
  | [], _, out => some out
  | iyi :: rest, iyomin, out => do
    let b ← yi.ck (iyi + 1)
    let o0 ← yo.ck iyomin
    if lt b o0 then nlOuterK yi yo w iyomax rest iyomin out
    else do
      let a ← yi.ck iyi
      let o1 ← yo.ck iyomax
      if lt o1 a then some out
      else do
        let r ← nlInnerK yi yo w iyi (pyRange iyomin (iyomax + 1)) iyomin out
        nlOuterK yi yo w iyomax rest r.1 r.2

/-- one row, xoa/interp.py:92-120, 164-193 -/
def nlRowK (yi yo : Row) (w : Int → V → V → Option (Option V)) (out : Int → V) : Option (Int → V) := do
  let i ← getIminmaxK yi
  let o ← getIminmaxK yo
  nlOuterK yi yo w o.2 (pyRange i.1 i.2) o.1 out

/-- last branches of `nearest1d`, xoa/interp.py:117-120 -/
def nearestWK (vari : Mat) (ixi iyi : Int) (dy0 dy1 : V) : Option (Option V) :=
  if le dy0 dy1 then (vari.ck ixi iyi).map some else (vari.ck ixi (iyi + 1)).map some

/-- last branch of `linear1d`, xoa/interp.py:189-193 -/
def linearWK (vari : Mat) (ixi iyi : Int) (dy0 dy1 : V) : Option (Option V) :=
  if le (some 0) dy0 && le (some 0) dy1 then do
    let a ← vari.ck ixi iyi
    let b ← vari.ck ixi (iyi + 1)
    some (some (div (add (mul a dy1) (mul b dy0)) (add dy0 dy1)))
  else some none

/-- inner loop of `cubic1d` and `hermit1d`, xoa/interp.py:258-290, 347-389 -/
def chInnerK (yi yo : Row) (w : Int → V → V → Option V) (iyi : Int) :
    List Int → Int → (Int → V) → Option (Int × (Int → V))
  | [], iyomin, out => some (iyomin, out)
  | iyo :: rest, iyomin, out => do
    let o ← yo.ck iyo
    let a ← yi.ck iyi
    let b ← yi.ck (iyi + 1)
    if lt (sub b o) (some 0) then some (iyomin, out)
    else if le (some 0) (sub o a) && le (some 0) (sub b o) then do
      let v ← w iyi (sub o a) (sub b o)
      let _ ← ckWrite yo.n iyo
      chInnerK yi yo w iyi rest iyo (wr1 yo.n out iyo v)
    else chInnerK yi yo w iyi rest iyomin out

/-- outer loop of `cubic1d` and `hermit1d`, xoa/interp.py:249-255, 338-344 -/
def chOuterK (yi yo : Row) (w : Int → V → V → Option V) (iyomax : Int) :
    List Int → Int → (Int → V) → Option (Int → V)
  | [], _, out => some out
  | iyi :: rest, iyomin, out => do
    let b ← yi.ck (iyi + 1)
    let o0 ← yo.ck iyomin
    if lt b o0 then chOuterK yi yo w iyomax rest iyomin out
    else do
      let a ← yi.ck iyi
      let o1 ← yo.ck iyomax
      if lt o1 a then some out
      else do
        let r ← chInnerK yi yo w iyi (pyRange iyomin yo.n) iyomin out
        chOuterK yi yo w iyomax rest r.1 r.2

/-- one row of `cubic1d` and `hermit1d`, xoa/interp.py:247-290, 336-389 -/
def chRowK (yi yo : Row) (w : Int → Int → Int → V → V → Option V) (out : Int → V) : Option (Int → V) := do
  let i ← getIminmaxK yi
  let o ← getIminmaxK yo
  chOuterK yi yo (w i.1 i.2) o.2 (pyRange i.1 i.2) o.1 out

/-- the data read for one point by `cubic1d` and `hermit1d`, xoa/interp.py:273-290, 362-389: the extrapolated or neighbour values, from the rows `ix` and `ixi`, and the
two values of the cell, from the row `ix` -/
def fourReadsK (vari : Mat) (ix ixi iyimin iyimax iyi : Int) : Option Unit := do
  let _ ← (if iyi = iyimin then (vari.ck ix iyi).bind (fun _ => vari.ck ix (iyi + 1)) else vari.ck ixi (iyi - 1))
  let _ ← (if iyi = iyimax - 1 then (vari.ck ixi (iyi + 1)).bind (fun _ => vari.ck ixi iyi) else vari.ck ixi (iyi + 2))
  let _ ← vari.ck ix (iyi + 1)
  let _ ← vari.ck ix iyi
  some ()

/-- value written by `cubic1d`, xoa/interp.py:271-290: the reads, and the formula -/
def cubicWK (vari : Mat) (ix ixi iyimin iyimax iyi : Int) (dy0 dy1 : V) : Option V :=
  (fourReadsK vari ix ixi iyimin iyimax iyi).map (fun _ => cubicW (vari.row ix) (vari.row ixi) iyimin iyimax iyi dy0 dy1)

/-- value written by `hermit1d`, xoa/interp.py:362-389: the reads, and the formula -/
def hermitWK (bias tension : ℚ) (vari : Mat) (ix ixi iyimin iyimax iyi : Int) (dy0 dy1 : V) : Option V :=
  (fourReadsK vari ix ixi iyimin iyimax iyi).map (fun _ => hermitW bias tension (vari.row ix) (vari.row ixi) iyimin iyimax iyi dy0 dy1)

/-- the loop on the rows, `nx` being the number of rows of the result -/
def rowLoopK (nx : Nat) (body : Int → (Int → V) → Option (Int → V)) (sched : List Int) (varo : Int → Int → V) : Option (Int → Int → V) :=
  sched.foldlM (fun varo ix => (ckWrite nx ix).bind (fun _ => (body ix (varo ix)).map (fun r => updRow varo ix r))) varo

/-- an output array from its rows -/
def mkOutK (vari yo : Mat) (body : Int → (Int → V) → Option (Int → V)) : Option Mat :=
  (rowLoopK (max vari.nx yo.nx) body (pyRange 0 (max vari.nx yo.nx : Nat)) nanMat).map (fun g => ⟨max vari.nx yo.nx, yo.ny, g⟩)

/-- the rows of the coordinates used for the row `ix`, xoa/interp.py:87-89 -/
def withRows (yi yo : Mat) (ix : Int) (f : Row → Row → Option (Int → V)) : Option (Int → V) :=
  (yi.ckRow (rowIdx yi.nx ix)).bind (fun a => (yo.ckRow (rowIdx yo.nx ix)).bind (fun b => f a b))

/-- `nearest1d` with bound checks, xoa/interp.py:53-122 -/
def nearest1dK (vari yi yo : Mat) : Option Mat :=
  mkOutK vari yo (fun ix out => withRows yi yo ix (fun a b => nlRowK a b (nearestWK vari (rowIdx vari.nx ix)) out))

/-- `linear1d` with bound checks, xoa/interp.py:125-205 -/
def linear1dK (vari yi yo : Mat) : Option Mat :=
  mkOutK vari yo (fun ix out => withRows yi yo ix (fun a b => nlRowK a b (linearWK vari (rowIdx vari.nx ix)) out))

/-- `cubic1d` with bound checks, xoa/interp.py:208-292 -/
def cubic1dK (vari yi yo : Mat) : Option Mat :=
  mkOutK vari yo (fun ix out => withRows yi yo ix (fun a b => chRowK a b (cubicWK vari ix (rowIdx vari.nx ix)) out))

/-- `hermit1d` with bound checks, xoa/interp.py:295-391 -/
def hermit1dK (vari yi yo : Mat) (bias tension : ℚ) : Option Mat :=
  mkOutK vari yo (fun ix out => withRows yi yo ix (fun a b => chRowK a b (hermitWK bias tension vari ix (rowIdx vari.nx ix)) out))

/-- one row of `extrap1d`, xoa/interp.py:416-423: the elements `varo[ix, iybot]` and `varo[ix, iytop]` are read; slices are never refused -/
def extrapRowK (mode : Extrap) (v : Row) (out : Int → V) : Option (Int → V) := do
  let r ← getIminmaxK v
  if r.1 = -1 then some out
  else do
    let _ ← (if mode = .both ∨ mode = .bottom then ckWrite v.n r.1 else some ())
    let _ ← (if mode = .both ∨ mode = .top then ckWrite v.n r.2 else some ())
    some (extrapRow mode v out)

/-- `extrap1d` with bound checks, xoa/interp.py:394-425 -/
def extrap1dK (vari : Mat) (mode : Extrap) : Option Mat :=
  if mode = .no then some vari
  else (rowLoopK vari.nx (fun ix out => (vari.ckRow ix).bind (fun v => extrapRowK mode v out)) (pyRange 0 vari.nx) vari.get).map
    (fun g => ⟨vari.nx, vari.ny, g⟩)

/-! ## `cellave1d` -/

/-- `m[i, j]`, checked; `cellave1d` has no negative index -/
def NMat.ck {α : Type} (m : NMat α) (i j : Nat) : Option α := if i < m.nx ∧ j < m.ny then some (m.get i j) else none

/-- inner loop on input cells, xoa/interp.py:476-507 -/
def caInnerK (conserv : Bool) (ex : CExtrap) (nyi : Nat) (yib : NMat ℚ) (vari : NMat V) (ix ixi ixiy : Nat) (o0 o1 : ℚ) :
    List Nat → Nat → ℚ → V → Option (Nat × ℚ × V)
  | [], iyi0, wo, acc => some (iyi0, wo, acc)
  | iyi :: rest, iyi0, wo, acc => do
    let _ ← yib.ck ixiy iyi
    let _ ← yib.ck ixiy (iyi + 1)
    let b0 := caLo ex (yib.get ixiy) o0 iyi
    let b1 := caHi ex nyi (yib.get ixiy) o1 iyi
    if b0 > o1 then some (iyi0, wo, acc)
    else if b1 < o0 then caInnerK conserv ex nyi yib vari ix ixi ixiy o0 o1 rest (iyi + 1) wo acc
    else do
      let d := min b1 o1 - max b0 o0
      let d := if conserv ∧ b0 ≠ b1 then d / (o1 - o0) else d
      let v ← vari.ck ixi iyi
      let acc' ← (if isnan v then some acc else (vari.ck ix iyi).bind (fun x => some (add acc (mul x (some d)))))
      let wo' := if isnan v then wo else wo + d
      if b1 ≥ o1 then some (iyi0, wo', acc')
      else caInnerK conserv ex nyi yib vari ix ixi ixiy o0 o1 rest iyi0 wo' acc'

/-- loop on output cells of one row, xoa/interp.py:469-514; `nx` and `nyo` are the sizes of the result -/
def caCellsK (conserv : Bool) (ex : CExtrap) (nx nyo nyi : Nat) (yib yob : NMat ℚ) (vari : NMat V) (ix ixi ixiy ixoy : Nat) :
    List Nat → Nat → (Nat → Nat → V) → Option (Nat → Nat → V)
  | [], _, varo => some varo
  | iyo :: rest, iyi0, varo => do
    let o0 ← yob.ck ixoy iyo
    let o1 ← yob.ck ixoy (iyo + 1)
    if o0 = o1 then caCellsK conserv ex nx nyo nyi yib yob vari ix ixi ixiy ixoy rest iyi0 varo
    else do
      let _ ← (if ixi < nx ∧ iyo < nyo then some () else none)
      let _ ← (if ix < nx ∧ iyo < nyo then some () else none)
      let r ← caInnerK conserv ex nyi yib vari ix ixi ixiy o0 o1 (List.range' iyi0 (nyi - iyi0)) iyi0 0 (varo ixi iyo)
      let varo := upd2 varo ixi iyo r.2.2
      let varo := if conserv then varo
        else if r.2.1 ≠ 0 then upd2 varo ix iyo (div (varo ix iyo) (some r.2.1))
        else upd2 varo ix iyo none
      caCellsK conserv ex nx nyo nyi yib yob vari ix ixi ixiy ixoy rest r.1 varo

/-- `cellave1d` with bound checks, xoa/interp.py:428-516 -/
def cellave1dK (vari : NMat V) (yib yob : NMat ℚ) (conserv : Bool) (ex : CExtrap) : Option (NMat V) :=
  let nx := max vari.nx yob.nx
  let nyo := yob.ny - 1
  ((List.range nx).foldlM (fun varo ix =>
      let ixi := min (vari.nx - 1) (ix % vari.nx)
      let ixiy := min (yib.nx - 1) (ix % yib.nx)
      let ixoy := min (yob.nx - 1) (ix % yob.nx)
      caCellsK conserv ex nx nyo vari.ny yib yob vari ix ixi ixiy ixoy (List.range nyo) 0 varo)
    (fun _ _ => some 0)).map (fun g => ⟨nx, nyo, g⟩)

end Xoa
