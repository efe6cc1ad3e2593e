import Verif.Cellave
import Verif.Rounding

/-!
# `cellave1d` in floating-point arithmetic

The same program as in `Verif.Cellave`, every difference, sum, product and quotient being rounded (data and edges of the same floating-point type).
-/

namespace Xoa
open V

/-- rounding of a value that may be NaN -/
def flV (fl : ℚ → ℚ) (x : V) : V := x.map fl

/-- `dyio`, xoa/interp.py:498-500 -/
def caStepF (fl : ℚ → ℚ) (conserv : Bool) (b0 b1 o0 o1 : ℚ) : ℚ :=
  if conserv ∧ b0 ≠ b1 then fl (fl (min b1 o1 - max b0 o0) / fl (o1 - o0)) else fl (min b1 o1 - max b0 o0)

/-- inner loop on input cells, xoa/interp.py:476-507, for the output cell `[o0, o1]`.
`va = vari[ix]`, `vb = vari[ixi]`; returns `(iyi0, wo, varo[ixi, iyo])`. -/
def caInnerF (fl : ℚ → ℚ) (conserv : Bool) (ex : CExtrap) (nyi : Nat) (yib : Nat → ℚ) (va vb : Nat → V) (o0 o1 : ℚ) :
    List Nat → Nat → ℚ → V → Nat × ℚ × V
  | [], iyi0, wo, acc => (iyi0, wo, acc)
  | iyi :: rest, iyi0, wo, acc =>
    let b0 := caLo ex yib o0 iyi
    let b1 := caHi ex nyi yib o1 iyi
    if b0 > o1 then (iyi0, wo, acc)                                             -- :491-492 break
    else if b1 < o0 then caInnerF fl conserv ex nyi yib va vb o0 o1 rest (iyi + 1) wo acc  -- :493-495
    else
      let d := caStepF fl conserv b0 b1 o0 o1                                   -- :498-500
      let wo' := if isnan (vb iyi) then wo else fl (wo + d)                     -- :501-502
      let acc' := if isnan (vb iyi) then acc else flV fl (add acc (flV fl (mul (va iyi) (some d))))  -- :503
      if b1 ≥ o1 then (iyi0, wo', acc')                                         -- :506-507 break
      else caInnerF fl conserv ex nyi yib va vb o0 o1 rest iyi0 wo' acc'

/-- loop on output cells of one row, xoa/interp.py:469-514 -/
def caCellsF (fl : ℚ → ℚ) (conserv : Bool) (ex : CExtrap) (nyi : Nat) (yib yob : Nat → ℚ) (va vb : Nat → V) (ix ixi : Nat) :
    List Nat → Nat → (Nat → Nat → V) → (Nat → Nat → V)
  | [], _, varo => varo
  | iyo :: rest, iyi0, varo =>
    if yob iyo = yob (iyo + 1) then caCellsF fl conserv ex nyi yib yob va vb ix ixi rest iyi0 varo   -- :471-472
    else
      let r := caInnerF fl conserv ex nyi yib va vb (yob iyo) (yob (iyo + 1))
        (List.range' iyi0 (nyi - iyi0)) iyi0 0 (varo ixi iyo)
      let varo := upd2 varo ixi iyo r.2.2
      let varo := if conserv then varo
        else if r.2.1 ≠ 0 then upd2 varo ix iyo (flV fl (div (varo ix iyo) (some r.2.1)))         -- :511-512
        else upd2 varo ix iyo none                                                                -- :514
      caCellsF fl conserv ex nyi yib yob va vb ix ixi rest r.1 varo

/-- `cellave1d(vari, yib, yob, conserv, extrap)` in floating-point arithmetic, xoa/interp.py:428-516 -/
def cellave1dF (fl : ℚ → ℚ) (vari : NMat V) (yib yob : NMat ℚ) (conserv : Bool) (ex : CExtrap) : NMat V :=
  let nx := max vari.nx yob.nx
  let nyo := yob.ny - 1
  ⟨nx, nyo, (List.range nx).foldl (fun varo ix =>
      let ixi := min (vari.nx - 1) (ix % vari.nx)
      let ixiy := min (yib.nx - 1) (ix % yib.nx)
      let ixoy := min (yob.nx - 1) (ix % yob.nx)
      caCellsF fl conserv ex vari.ny (yib.get ixiy) (yob.get ixoy) (vari.get ix) (vari.get ixi) ix ixi
        (List.range nyo) 0 varo)
    (fun _ _ => some 0)⟩

end Xoa
