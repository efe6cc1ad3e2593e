import Verif.Filter
import Mathlib.Data.Rat.Floor

/-!
# Model of the filters of xoa/filter.py for data of an integer type

The kernel is converted to the type of the data (xoa/filter.py:427, and :472-476 if it is called directly): its weights are truncated toward zero. The convolution of
integer arrays is an integer array (scipy rounds the result of an FFT), whose division in place is refused by numpy. Overflows are not modelled.
-/

namespace Xoa

/-- `float.astype(int)`: truncation toward zero -/
def truncQ (q : ℚ) : Int := if 0 ≤ q then ⌊q⌋ else ⌈q⌉

/-- `kernel.astype(data.dtype)` for an integer type, xoa/filter.py:427 -/
def truncKernel (k : LArr ℚ) : LArr Int := ⟨k.dims, k.shape, fun idx => truncQ (k.val idx)⟩

/-- `scipy.signal.convolve(data, kernel, mode="same")` of integer arrays at `p`, xoa/filter.py:485 -/
def convInt (shape : List Nat) (data : List Nat → Int) (k : LArr Int) (p : List Nat) : Int :=
  ((positions shape).map (fun q => (kIdx k.shape p q).elim 0 k.val * data q)).sum

/-- `_convolve_(data, kernel, normalize)` of integer arrays, xoa/filter.py:466-499: there is no missing value, so that `:490-492` and `:497-498` do
nothing, and `cdata /= weights` (`:496`) is a `TypeError` because the result is not of an integer type -/
def convolveNdInt (data : LArr Int) (k : LArr Int) (normalize : Bool) : Except CErr (LArr Int) :=
  if data.shape.length ≠ k.shape.length then .error .assertionError
  else if normalize then .error .typeError
  else .ok ⟨data.dims, data.shape, convInt data.shape data.val k⟩

/-- `convolve(data, kernel, normalize)` of data of an integer type, xoa/filter.py:502-552 -/
def convolveInt (data : LArr Int) (spec : KSpec) (normalize : Bool) : Except CErr (LArr Int) :=
  (generateKernel onesWindow 0 spec data.dims).bind (fun k => convolveNdInt data (truncKernel k) normalize)

/-- the loop on `range(niter)` with `_convolve_and_fill_`, xoa/filter.py:572-573, 641-643; `fillna` gives the data, that have no missing value -/
def erodeIterInt (k : LArr Int) : Nat → LArr Int → Except CErr (LArr Int)
  | 0, data => .ok data
  | n + 1, data => (convolveInt data (.da ⟨k.dims, k.shape, fun idx => (k.val idx : ℚ)⟩) true).bind (fun _ => erodeIterInt k n data)

/-- `erode_mask(data, until=niter, kernel)` of data of an integer type, xoa/filter.py:576-645 -/
def erodeMaskInt (data : LArr Int) (niter : Int) (spec : KSpec) : Except CErr (LArr Int) :=
  if data.dims.length < 2 then .error .xoaError
  else (generateKernel onesWindow 0 spec data.dims).bind (fun k =>
    if 2 < (kDims k).length then .error .xoaError else erodeIterInt (truncKernel k) niter.toNat data)

end Xoa
