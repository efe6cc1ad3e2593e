import Verif.CfDims
import Verif.Filter

/-!
# Model of the choice of the horizontal dimensions by `erode_mask` (xoa/filter.py) and of the property `dim` of the accessors (xoa/accessors.py)
-/

namespace Xoa

/-- `get_dims(data, dim_type, allow_positional=True, errors="raise")[0]`, xoa/filter.py:557-558 and 560-561, with xoa/coords.py:162-189
and xoa/cf.py:1409-1436 -/
def xyFound (sg : SG) (types : CfDims) (da : DArr) (t : Str) : Except DErr (Option Str) :=
  (getDims sg types da [t] true "tzyx".toList .raise).bind fun r => .ok (r.1.headD none)

/-- the dimension given, or the one found -/
def xyOne (sg : SG) (types : CfDims) (da : DArr) (t : Str) : Option Str → Except DErr (Option Str)
  | some d => .ok (some d)
  | none => xyFound sg types da t

/-- `_get_xydims_(data, xdim, ydim)`, xoa/filter.py:555-562 -/
def getXY (sg : SG) (types : CfDims) (da : DArr) (xdim ydim : Option Str) : Except DErr (Option Str × Option Str) :=
  (xyOne sg types da ['x'] xdim).bind fun x => (xyOne sg types da ['y'] ydim).bind fun y => .ok (x, y)

/-- an error of `erode_mask`: the dimensions were not found, or the filter failed -/
inductive ErodeErr
  | dims (e : DErr)
  | filt (e : CErr)

/-- the default kernel of `erode_mask`, xoa/filter.py:625-627 -/
def defaultKernel (p : Option Str × Option Str) : KSpec :=
  .da (shapiroKernel ([p.2, p.1].map (fun d => String.ofList (d.getD "None".toList))))

/-- `erode_mask(data, until=niter, xdim=xdim, ydim=ydim)`, xoa/filter.py:576-644; `da` is what the search of the dimensions sees of `data` -/
def erodeAutoN (sg : SG) (types : CfDims) (data : LArr V) (da : DArr) (niter : Int) (xdim ydim : Option Str) : Except ErodeErr (LArr V) :=
  if data.dims.length < 2 then .error (.filt .xoaError)
  else match getXY sg types da xdim ydim with
    | .error e => .error (.dims e)
    | .ok p => (erodeMaskN data niter (defaultKernel p)).mapError .filt

/-- a mask without dimensions: its shape and its values -/
structure PlainMask where
  shape : List Nat
  val : List Nat → Bool

/-- its conversion, xoa/filter.py:614-618 -/
def PlainMask.named (m : PlainMask) (p : Option Str × Option Str) : LArr Bool :=
  ⟨[p.2, p.1].map (fun d => String.ofList (d.getD "None".toList)), m.shape, m.val⟩

/-- `erode_mask(data, until=mask, xdim=xdim, ydim=ydim)` with a mask that is a plain array, xoa/filter.py:576-644, with at most `fuel` turns:
its dimensions are `(ydim, xdim)` -/
def erodeAutoMask (sg : SG) (types : CfDims) (data : LArr V) (da : DArr) (mask : PlainMask) (xdim ydim : Option Str) (fuel : Nat) :
    Option (Except ErodeErr (LArr V)) :=
  if data.dims.length < 2 then some (.error (.filt .xoaError))
  else match getXY sg types da xdim ydim with
    | .error e => some (.error (.dims e))
    | .ok p =>
      if 2 < mask.shape.length then some (.error (.filt .xoaError))
      else if mask.shape.length ≠ 2 then some (.error (.filt .valueError))   -- number of dimensions
      else (erodeMaskUntil data (mask.named p) (defaultKernel p) fuel).map (Except.mapError .filt)

/-! ## the property `dim` of the accessors -/

/-- is it an `XoaError` -/
def DErr.isXoa : DErr → Bool
  | .notADim | .invalidDim | .tooMany | .noDim => true
  | .indexError | .unboundLocal => false

/-- the property `dim`, xoa/accessors.py:110-115 -/
def accDim (sg : SG) (types : CfDims) (da : DArr) : Except DErr (Option Str) :=
  match searchDim0 sg types da none with
  | .ok r => .ok r.1
  | .error e => if e.isXoa then .ok none else .error e

end Xoa
