import Verif.Coords

/-!
# Model of xoa/filter.py: kernels, convolution with missing values, mask erosion

Values are exact (no rounding). `scipy.signal.convolve(data, kernel, mode="same")` is modelled by its mathematical
definition (see `conv`), whatever the method (direct or FFT) that scipy chooses. The windows of numpy and
scipy are an arbitrary function from a size to a list of values. Isotropic kernels are in `FilterIso`.
-/

namespace Xoa

/-- all the positions of an array, in row-major order -/
def positions : List Nat → List (List Nat)
  | [] => [[]]
  | n :: ns => (List.range n).flatMap (fun i => (positions ns).map (i :: ·))

/-- position in the kernel of the weight given to the datum at `q` for the result at `p`, for `mode="same"`:
`p + (size - 1) // 2 - q` along each dimension; none outside the kernel -/
def kIdx : List Nat → List Nat → List Nat → Option (List Nat)
  | [], [], [] => some []
  | k :: ks, p :: ps, q :: qs =>
    if q ≤ p + (k - 1) / 2 ∧ p + (k - 1) / 2 - q < k then (kIdx ks ps qs).map ((p + (k - 1) / 2 - q) :: ·) else none
  | _, _, _ => none

/-- weight given to the datum at `q` for the result at `p` -/
def kAt (k : LArr ℚ) (p q : List Nat) : ℚ := (kIdx k.shape p q).elim 0 k.val

/-- `scipy.signal.convolve(data, kernel, mode="same")` at `p` -/
def conv (shape : List Nat) (data : List Nat → ℚ) (k : LArr ℚ) (p : List Nat) : ℚ :=
  ((positions shape).map (fun q => kAt k p q * data q)).sum

/-- `kernel.sum()` -/
def kSum (k : LArr ℚ) : ℚ := ((positions k.shape).map k.val).sum

/-- `_convolve_(data, kernel, normalize)`, xoa/filter.py:466-499 -/
def convolveNd (data : LArr V) (k : LArr ℚ) (normalize : Bool) : Except CErr (LArr V) :=
  -- :471
  if data.shape.length ≠ k.shape.length then .error .assertionError
  else
    -- :479-482
    let withMask : Bool := (positions data.shape).any (fun q => (data.val q).isNone)
    let filled : List Nat → ℚ := fun q => (data.val q).getD 0
    -- :485-488
    let cdata := conv data.shape filled k
    let weights : List Nat → ℚ := fun p =>
      min (max (conv data.shape (fun q => if (data.val q).isNone then 0 else 1) k p) 0) (kSum k)
    -- :491-492
    let bad : List Nat → Bool := fun p => decide (|weights p| ≤ 1 / 1000000 * kSum k)
    .ok ⟨data.dims, data.shape, fun p =>
      -- :493-498
      if withMask && bad p then none
      else if normalize then V.div (some (cdata p)) (some (weights p)) else some (cdata p)⟩

/-! ## kernels -/

/-- specification of the kernel along one dimension -/
inductive K1
  | int (n : Int) | float (q : ℚ) | arr (l : List ℚ)

/-- 1-D kernel from its specification, xoa/filter.py:271-282; `window` is the window function; a negative size is
refused by the windows -/
def kernel1d (window : Nat → List ℚ) (fill : ℚ) : K1 → Except CErr (List ℚ)
  | .int n => if n < 0 then .error .valueError else .ok (window n.toNat)
  | .float q =>
    -- int(k1d) truncates towards zero
    let t : Int := if 0 ≤ q then q.floor else q.ceil
    let size : Int := if (t : ℚ) ≠ q then t + 2 else t
    if size < 2 then .error .valueError
    else .ok ([fill] ++ window (size - 2).toNat ++ [fill])
  | .arr l => .ok l

/-- an array without names -/
structure Nd where
  shape : List Nat
  val : List Nat → ℚ

/-- 1-D array -/
def Nd.ofList (l : List ℚ) : Nd := ⟨[l.length], fun idx => l.getD (idx.getD 0 0) 0⟩

/-- `np.tensordot(kernel[:, None], k1d[None], axes=1)`, xoa/filter.py:288: the last dimension of `kernel[:, None]` is
contracted with the first one, of size 1, of `k1d[None]` -/
def tensorMerge (k : Nd) (v : List ℚ) : Except CErr Nd :=
  match k.shape with
  | [] => .error .indexError
  | [n] => .ok ⟨[n, v.length], fun idx => k.val [idx.getD 0 0] * v.getD (idx.getD 1 0) 0⟩
  | n :: ns =>
    if ns.getLastD 0 ≠ 1 then .error .valueError
    else .ok ⟨n :: 1 :: ns.dropLast ++ [v.length],
      fun idx => k.val (idx.headD 0 :: (idx.drop 2).dropLast ++ [0]) * v.getD (idx.getLastD 0) 0⟩

/-- loop of `generate_orthogonal_kernel`, xoa/filter.py:268-288, from the second kernel -/
def orthoLoop (window : Nat → List ℚ) (fill : ℚ) : List K1 → Nd → Except CErr Nd
  | [], k => .ok k
  | s :: rest, k => do
    let v ← kernel1d window fill s
    let k' ← tensorMerge k v
    orthoLoop window fill rest k'

/-- `generate_orthogonal_kernel(kernels, window_func, fill_value)`, xoa/filter.py:200-290; without kernel it returns `None`,
of which no array with dimensions can be made: an error here -/
def orthoKernel (window : Nat → List ℚ) (fill : ℚ) : List K1 → Except CErr Nd
  | [] => .error .valueError
  | s :: rest => do
    let v ← kernel1d window fill s
    orthoLoop window fill rest (Nd.ofList v)

/-- the argument `kernel` of `generate_kernel` -/
inductive KSpec
  | int (n : Int) | tuple (l : List K1) | list (l : List ℚ) | dict (l : List (String × K1)) | nd (k : Nd) | da (k : LArr ℚ)

/-- `data.dims[-n:]` (all of them if `n = 0`) -/
def lastDims (dims : List String) (n : Nat) : List String := if n = 0 then dims else dims.drop (dims.length - n)

/-- conversion of an integer, a tuple or a list to a dictionary, xoa/filter.py:332-345 -/
def kernelDict (dims : List String) : KSpec → Except CErr KSpec
  | .int n => .ok (.dict (dims.map (fun d => (d, .int n))))
  | .tuple l => if dims.length < l.length then .error .xoaError else .ok (.dict ((lastDims dims l.length).zip l))
  | .list l => .ok (.dict (dims.map (fun d => (d, .arr l))))
  | s => .ok s

/-- `xr.DataArray(values, dims=dims)` -/
def mkDa (k : Nd) (dims : List String) : Except CErr (LArr ℚ) :=
  if dims.length = k.shape.length then .ok ⟨dims, k.shape, k.val⟩ else .error .valueError

/-- `generate_kernel(kernel, data)` without isotropy, xoa/filter.py:293-427; only the dimensions of the data matter. The
conversion to the type of the data is not modelled. -/
def generateKernel (window : Nat → List ℚ) (fill : ℚ) (spec : KSpec) (dims : List String) : Except CErr (LArr ℚ) := do
  let s ← kernelDict dims spec
  let k ← match s with
    | .dict l => do
      let k ← orthoKernel window fill (l.map (·.2))
      mkDa k (l.map (·.1))
    | .nd k => if dims.length < k.shape.length then Except.error CErr.attributeError else mkDa k (lastDims dims k.shape.length)
    | .da k => if ∀ d ∈ k.dims, d ∈ dims then Except.ok k else Except.error CErr.xoaError
    | _ => Except.error CErr.typeError
  -- :427
  transposeTo k (dims.map some) (fun _ => none) .insert

/-- `shapiro_kernel(dims)`, xoa/filter.py:430-463: each index array has 2 replaced by 0, then all are added -/
def shapiroKernel (dims : List String) : LArr ℚ :=
  ⟨dims, dims.map (fun _ => 3), fun idx => (idx.map (fun i : Nat => if i = 2 then (0 : ℚ) else (i : ℚ))).sum⟩

/-- `np.ones` -/
def onesWindow (n : Nat) : List ℚ := List.replicate n 1

/-- `convolve(data, kernel, normalize)`, xoa/filter.py:502-552; the dimensions are those of the coordinates of the data -/
def convolve (data : LArr V) (spec : KSpec) (normalize : Bool) : Except CErr (LArr V) := do
  let k ← generateKernel onesWindow 0 spec data.dims
  convolveNd data k normalize

/-! ## mask erosion -/

/-- `_convolve_and_fill_`, xoa/filter.py:572-573 -/
def convolveFill (data : LArr V) (k : LArr ℚ) : Except CErr (LArr V) := do
  let c ← convolve data (.da k) true
  .ok ⟨data.dims, data.shape, fun p => (data.val p).orElse (fun _ => c.val p)⟩

/-- the loop on `range(niter)`, xoa/filter.py:641-643 -/
def erodeIter (k : LArr ℚ) : Nat → LArr V → Except CErr (LArr V)
  | 0, data => .ok data
  | n + 1, data => do
    let d ← convolveFill data k
    erodeIter k n d

/-- `kernel.squeeze().dims` -/
def kDims (k : LArr ℚ) : List String := k.dims.filter (fun d => k.size d ≠ 1)

/-- `_reduce_mask_(data, kdims)`, xoa/filter.py:565-569: dimensions other than `kdims` are reduced by `any` -/
def reduceMask (data : LArr V) (kdims : List String) : LArr Bool :=
  let keep := data.dims.filter (· ∈ kdims)
  let red := data.dims.filter (· ∉ kdims)
  ⟨keep, keep.map data.size, fun idx =>
    (positions (red.map data.size)).any (fun r => (data.val (data.dims.map (look (keep ++ red) (idx ++ r)))).isNone)⟩

/-- `int(mask.sum())` -/
def maskCount (m : LArr Bool) : Nat := (positions m.shape).countP m.val

/-- `(mask | rmask).sum()`: broadcast on the union of the dimensions -/
def orCount (m r : LArr Bool) : Nat :=
  let D := m.dims ++ r.dims.filter (· ∉ m.dims)
  (positions (D.map (fun d => if d ∈ m.dims then m.size d else r.size d))).countP
    (fun idx => m.val (m.dims.map (look D idx)) || r.val (r.dims.map (look D idx)))

/-- the loop `while nmask > nmask_min`, xoa/filter.py:634-639, with at most `fuel` turns (`none` if it is still running) -/
def erodeUntil (k : LArr ℚ) (mask : LArr Bool) : Nat → LArr V → Option (Except CErr (LArr V))
  | 0, _ => none
  | fuel + 1, data =>
    match convolveFill data k with
    | .error e => some (.error e)
    | .ok d =>
      if orCount mask (reduceMask d (kDims k)) > maskCount mask then erodeUntil k mask fuel d else some (.ok d)

/-- the checks of `erode_mask` and its kernel, xoa/filter.py:605-606, 624-630. Without `kernel`, the caller's dimensions `(ydim, xdim)` give
`.da (shapiroKernel [ydim, xdim])`. -/
def erodeKernel (data : LArr V) (spec : KSpec) : Except CErr (LArr ℚ) := do
  if data.dims.length < 2 then Except.error CErr.xoaError
  else do
    let k ← generateKernel onesWindow 0 spec data.dims
    if 2 < (kDims k).length then Except.error CErr.xoaError else Except.ok k

/-- `erode_mask(data, until=niter, kernel)`, xoa/filter.py:576-644 -/
def erodeMaskN (data : LArr V) (niter : Int) (spec : KSpec) : Except CErr (LArr V) := do
  let k ← erodeKernel data spec
  erodeIter k niter.toNat data

/-- `erode_mask(data, until=mask, kernel)` with `mask` an array with dimensions, xoa/filter.py:576-644, with at most `fuel` turns -/
def erodeMaskUntil (data : LArr V) (mask : LArr Bool) (spec : KSpec) (fuel : Nat) : Option (Except CErr (LArr V)) :=
  if data.dims.length < 2 then some (.error .xoaError)
  -- :619-621
  else if ∃ d ∈ mask.dims, d ∉ data.dims then some (.error .xoaError)
  else match transposeTo mask (data.dims.map some) (fun _ => none) .compat with
    | .error e => some (.error e)
    | .ok mask' => match erodeKernel data spec with
      | .error e => some (.error e)
      | .ok k => erodeUntil k mask' fuel data

end Xoa
