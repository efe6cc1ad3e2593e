import Verif.Filter

/-!
# Model of the convolution of xoa/filter.py with an approximate `scipy.signal.convolve`

`scipy.signal.convolve` is called with its default method, that chooses between the sum of products and the product of Fourier transforms
(xoa/filter.py:485, 487). Neither gives the exact sums in floating-point arithmetic. `Filter` takes the exact sums; here the function that computes
them is an argument, of which the theorems only assume how far it is from the exact sums. The comparisons, the clipping and the division are exact.
-/

namespace Xoa

/-- a function that computes `scipy.signal.convolve(data, kernel, mode="same")` at a point, from the shape and the values of the data, and the kernel -/
abbrev Convolver := List Nat → (List Nat → ℚ) → LArr ℚ → List Nat → ℚ

/-- `_convolve_(data, kernel, normalize)`, xoa/filter.py:466-499, with `cv` for `ss.convolve` -/
def convolveNdA (cv : Convolver) (data : LArr V) (k : LArr ℚ) (normalize : Bool) : Except CErr (LArr V) :=
  -- :471
  if data.shape.length ≠ k.shape.length then .error .assertionError
  else
    -- :479-482
    let withMask : Bool := (positions data.shape).any (fun q => (data.val q).isNone)
    let filled : List Nat → ℚ := fun q => (data.val q).getD 0
    -- :485-488
    let cdata := cv data.shape filled k
    let weights : List Nat → ℚ := fun p =>
      min (max (cv data.shape (fun q => if (data.val q).isNone then 0 else 1) k p) 0) (kSum k)
    -- :491-492
    let bad : List Nat → Bool := fun p => decide (|weights p| ≤ 1 / 1000000 * kSum k)
    .ok ⟨data.dims, data.shape, fun p =>
      -- :493-498
      if withMask && bad p then none
      else if normalize then V.div (some (cdata p)) (some (weights p)) else some (cdata p)⟩

/-- `convolve(data, kernel, normalize)`, xoa/filter.py:502-552 -/
def convolveA (cv : Convolver) (data : LArr V) (spec : KSpec) (normalize : Bool) : Except CErr (LArr V) :=
  (generateKernel onesWindow 0 spec data.dims).bind (fun k => convolveNdA cv data k normalize)

/-- `_convolve_and_fill_`, xoa/filter.py:572-573 -/
def convolveFillA (cv : Convolver) (data : LArr V) (k : LArr ℚ) : Except CErr (LArr V) :=
  (convolveA cv data (.da k) true).bind (fun c => .ok ⟨data.dims, data.shape, fun p => (data.val p).orElse (fun _ => c.val p)⟩)

/-- the loop on `range(niter)`, xoa/filter.py:641-643 -/
def erodeIterA (cv : Convolver) (k : LArr ℚ) : Nat → LArr V → Except CErr (LArr V)
  | 0, data => .ok data
  | n + 1, data => (convolveFillA cv data k).bind (fun d => erodeIterA cv k n d)

/-- `erode_mask(data, until=niter, kernel)`, xoa/filter.py:576-645 -/
def erodeMaskNA (cv : Convolver) (data : LArr V) (niter : Int) (spec : KSpec) : Except CErr (LArr V) :=
  (erodeKernel data spec).bind (fun k => erodeIterA cv k niter.toNat data)

end Xoa
