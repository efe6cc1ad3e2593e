import Verif.Num
import Mathlib.Algebra.BigOperators.Group.Finset.Basic

/-!
# Model of `cellave1d` (`xoa/interp.py:428-516`)

Cell edges are finite numbers here (NaN edges are not modelled: `min`/`max` on NaN are
order dependent); data may be NaN.  As for the other routines, reads outside the bounds
return arbitrary memory (`get` is total).  The function is compiled with
`parallel=False`, so `prange` is a sequential loop.
-/

namespace Xoa
open V

/-- array of shape `(nx, ny)`; `get` outside the bounds is arbitrary memory -/
structure NMat (α : Type) where
  nx : Nat
  ny : Nat
  get : Nat → Nat → α

/-- the `extrap` argument of `cellave1d`, xoa/interp.py:483,486 (strings, as spelled in the code) -/
inductive CExtrap | no | bellow | above | both
  deriving DecidableEq, Repr

/-- `yib0` after lines 479, 483-485 -/
def caLo (ex : CExtrap) (yib : Nat → ℚ) (o0 : ℚ) (iyi : Nat) : ℚ :=
  if (ex = .bellow ∨ ex = .both) ∧ iyi = 0 ∧ yib iyi > o0 then o0 else yib iyi

/-- `yib1` after lines 480, 486-488 -/
def caHi (ex : CExtrap) (nyi : Nat) (yib : Nat → ℚ) (o1 : ℚ) (iyi : Nat) : ℚ :=
  if (ex = .above ∨ ex = .both) ∧ iyi + 1 = nyi ∧ yib (iyi + 1) < o1 then o1 else yib (iyi + 1)

/-- inner loop on input cells, xoa/interp.py:476-507, for the output cell `[o0, o1]`.
`va = vari[ix]`, `vb = vari[ixi]`; returns `(iyi0, wo, varo[ixi, iyo])`. -/
def caInner (conserv : Bool) (ex : CExtrap) (nyi : Nat) (yib : Nat → ℚ) (va vb : Nat → V) (o0 o1 : ℚ) :
    List Nat → Nat → ℚ → V → Nat × ℚ × V
  | [], iyi0, wo, acc => (iyi0, wo, acc)
  | iyi :: rest, iyi0, wo, acc =>
    let b0 := caLo ex yib o0 iyi
    let b1 := caHi ex nyi yib o1 iyi
    if b0 > o1 then (iyi0, wo, acc)                                             -- :491-492 break
    else if b1 < o0 then caInner conserv ex nyi yib va vb o0 o1 rest (iyi + 1) wo acc  -- :493-495
    else
      let d := min b1 o1 - max b0 o0                                            -- :498
      let d := if conserv ∧ b0 ≠ b1 then d / (o1 - o0) else d                   -- :499-500
      let wo' := if isnan (vb iyi) then wo else wo + d                          -- :501-502
      let acc' := if isnan (vb iyi) then acc else add acc (mul (va iyi) (some d))  -- :503
      if b1 ≥ o1 then (iyi0, wo', acc')                                         -- :506-507 break
      else caInner conserv ex nyi yib va vb o0 o1 rest iyi0 wo' acc'

/-- write one element -/
def upd2 (m : Nat → Nat → V) (i j : Nat) (v : V) : Nat → Nat → V :=
  fun i' j' => if i' = i ∧ j' = j then v else m i' j'

/-- loop on output cells of one row, xoa/interp.py:469-514 -/
def caCells (conserv : Bool) (ex : CExtrap) (nyi : Nat) (yib yob : Nat → ℚ) (va vb : Nat → V) (ix ixi : Nat) :
    List Nat → Nat → (Nat → Nat → V) → (Nat → Nat → V)
  | [], _, varo => varo
  | iyo :: rest, iyi0, varo =>
    if yob iyo = yob (iyo + 1) then caCells conserv ex nyi yib yob va vb ix ixi rest iyi0 varo   -- :471-472
    else
      let r := caInner conserv ex nyi yib va vb (yob iyo) (yob (iyo + 1))
        (List.range' iyi0 (nyi - iyi0)) iyi0 0 (varo ixi iyo)
      let varo := upd2 varo ixi iyo r.2.2
      let varo := if conserv then varo
        else if r.2.1 ≠ 0 then upd2 varo ix iyo (div (varo ix iyo) (some r.2.1))                  -- :511-512
        else upd2 varo ix iyo none                                                                -- :514
      caCells conserv ex nyi yib yob va vb ix ixi rest r.1 varo

/-- `cellave1d(vari, yib, yob, conserv, extrap)`, xoa/interp.py:428-516; `yob` has
`nyo + 1` columns, `yib` has `nyi + 1` columns. -/
def cellave1d (vari : NMat V) (yib yob : NMat ℚ) (conserv : Bool) (ex : CExtrap) : NMat V :=
  let nx := max vari.nx yob.nx
  let nyo := yob.ny - 1
  ⟨nx, nyo, (List.range nx).foldl (fun varo ix =>
      let ixi := min (vari.nx - 1) (ix % vari.nx)
      let ixiy := min (yib.nx - 1) (ix % yib.nx)
      let ixoy := min (yob.nx - 1) (ix % yob.nx)
      caCells conserv ex vari.ny (yib.get ixiy) (yob.get ixoy) (vari.get ix) (vari.get ixi) ix ixi
        (List.range nyo) 0 varo)
    (fun _ _ => some 0)⟩

end Xoa
