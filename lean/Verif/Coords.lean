import Verif.Num

/-!
# Model of xoa/coords.py: `transpose`, `DimFlusher1D`, `reorder`

Arrays are positional: a list of dimension names, a shape, and a function from the list of
indices (one per dimension, in the order of the dimensions) to the values. Coordinates, attributes and
indexes of `xarray` objects are not part of the array; `xarray.align` is supposed to find equal
(or no) indexes on the dimensions shared by two arrays.
-/

namespace Xoa

/-- a labelled array: names of dimensions, sizes and values by position -/
structure LArr (α : Type) where
  dims : List String
  shape : List Nat
  val : List Nat → α

/-- entry attached to the name `x` in two parallel lists (0 if there is none) -/
def look : List String → List Nat → String → Nat
  | d :: ds, i :: is, x => if x = d then i else look ds is x
  | _, _, _ => 0

/-- `da.sizes[d]` -/
def LArr.size {α} (a : LArr α) (d : String) : Nat := look a.dims a.shape d

/-- well formed: one size per dimension, no repeated name -/
structure LArr.Ok {α} (a : LArr α) : Prop where
  nodup : a.dims.Nodup
  len : a.shape.length = a.dims.length

/-- `np.transpose` of the values to the order `ds` of the dimensions -/
def LArr.permute {α} (a : LArr α) (ds : List String) : LArr α :=
  ⟨ds, ds.map a.size, fun idx => a.val (a.dims.map (look ds idx))⟩

inductive CErr
  | valueError | xoaError | cfError | assertionError | unboundLocal | typeError | keyError | indexError | attributeError
  deriving DecidableEq, Repr

/-- one name of the arguments of `xarray.DataArray.transpose`; `none` is `Ellipsis`, replaced by the
dimensions that are not named -/
def infixOne (dims : List String) (ds : List (Option String)) : Option String → List String
  | none => dims.filter (fun d => some d ∉ ds)
  | some d => [d]

/-- `xarray.DataArray.transpose(*ds)`: without argument the dimensions are reversed; otherwise the names,
completed at the position of `Ellipsis`, must be exactly the dimensions of the array -/
def xrTranspose {α} (a : LArr α) (ds : List (Option String)) : Except CErr (LArr α) :=
  let full := if ds = [] then a.dims.reverse else ds.flatMap (infixOne a.dims ds)
  if full.Nodup ∧ (∀ d ∈ full, d ∈ a.dims) ∧ (∀ d ∈ a.dims, d ∈ full) then .ok (a.permute full)
  else .error .valueError

/-- `xarray.DataArray.expand_dims(dict)`: new dimensions on the left, values repeated along them -/
def LArr.expandDims {α} (a : LArr α) (new : List (String × Nat)) : LArr α :=
  ⟨new.map (·.1) ++ a.dims, new.map (·.2) ++ a.shape, fun idx => a.val (idx.drop new.length)⟩

/-- `transpose_modes`, xoa/coords.py:192-205 -/
inductive TMode
  | classic | compat | insert | resize
  deriving DecidableEq, Repr

/-- size of a new dimension, xoa/coords.py:279-289; `sizes d` is the size given by the caller, if any -/
def newSize (mode : TMode) (sizes : String → Option Nat) (d : String) : Nat :=
  if mode = .resize then (sizes d).getD 1 else 1

/-- `expand_dims[dim] = size`, xoa/coords.py:280, 289 (a repeated name gets the same size) -/
def setDim (l : List (String × Nat)) (d : String) (n : Nat) : List (String × Nat) :=
  if d ∈ l.map (·.1) then l else l ++ [(d, n)]

/-- loop on the requested dimensions, xoa/coords.py:270-290; the state is `(odims, expand_dims, with_ell)` -/
def transposeStep {α} (a : LArr α) (mode : TMode) (sizes : String → Option Nat)
    (s : List (Option String) × List (String × Nat) × Bool) : Option String → List (Option String) × List (String × Nat) × Bool
  | none => (s.1 ++ [none], s.2.1, true)
  | some d =>
    if d ∈ a.dims then (s.1 ++ [some d], s.2.1, s.2.2)
    else if mode = .insert ∨ mode = .resize then (s.1 ++ [some d], setDim s.2.1 d (newSize mode sizes d), s.2.2)
    else s

/-- `transpose(da, dims, mode)`, xoa/coords.py:208-300. `sizes` gives the sizes when
`dims` is an array or a dictionary of sizes (:254-261). Warnings are not modelled. -/
def transposeTo {α} (a : LArr α) (dims : List (Option String)) (sizes : String → Option Nat) (mode : TMode) :
    Except CErr (LArr α) :=
  if mode = .classic then xrTranspose a dims
  else
    let s := dims.foldl (transposeStep a mode sizes) ([], [], false)
    -- :292-294
    let b := if s.2.1 = [] then a else a.expandDims s.2.1
    -- :296-299: strict inclusion of the sets of names
    let odims := if s.2.2 = false ∧ (∀ d ∈ s.1, ∃ x ∈ b.dims, d = some x) ∧ (∃ x ∈ b.dims, some x ∉ s.1) then none :: s.1 else s.1
    xrTranspose b odims

/-! ## DimFlusher1D -/

/-- `a.broadcast_like(o, exclude=(dim0, dim1))`: dimensions of `o`, then the other ones of `a`, then
the excluded ones of `a` -/
def LArr.broadcastLike {α β} (a : LArr α) (o : LArr β) (dim0 dim1 : String) : LArr α :=
  let D := o.dims.filter (fun d => d ≠ dim0 ∧ d ≠ dim1) ++ a.dims.filter (fun d => d ≠ dim0 ∧ d ≠ dim1 ∧ d ∉ o.dims) ++
    (if dim0 = dim1 then [dim0] else [dim0, dim1]).filter (fun d => d ∈ a.dims)
  ⟨D, D.map (fun d => if d ∈ a.dims then a.size d else o.size d), fun idx => a.val (a.dims.map (look D idx))⟩

/-- row-major rank of a position in an array -/
def ravel : List Nat → List Nat → Nat
  | _ :: ns, i :: is => i * ns.prod + ravel ns is
  | _, _ => 0

/-- position of row-major rank `k` in an array -/
def unravel : List Nat → Nat → List Nat
  | [], _ => []
  | _ :: ns, k => (k / ns.prod) :: unravel ns (k % ns.prod)

/-- `a.data.reshape(-1, a.shape[-1])`; an empty last dimension is refused by numpy -/
def LArr.flat2 (a : LArr V) : Except CErr Mat :=
  let n := a.shape.getLastD 0
  if n = 0 then .error .valueError
  else .ok ⟨a.shape.dropLast.prod, n, fun i j => a.val (unravel a.shape (i.toNat * n + j.toNat))⟩

/-- `data_out.reshape(shape)` of a 2-D array -/
def unflat2 (m : Mat) (dims : List String) (shape : List Nat) : Except CErr (LArr V) :=
  if m.nx * m.ny = shape.prod then
    .ok ⟨dims, shape, fun idx => m.get ((ravel shape idx / m.ny : Nat)) ((ravel shape idx % m.ny : Nat))⟩
  else .error .valueError

/-- result of the constructor of `DimFlusher1D`: what `get_back` and the interpolation use -/
structure Flushed where
  daIn : Mat
  coordIn : Mat
  coordOut : Mat
  workShape : List Nat
  workDims : List String
  finalDims : List String

/-- `coord_out.ndim > 1` and strict inclusion of sets of names, without the last dimension -/
def strictSub (a b : List String) : Prop := (∀ d ∈ a, d ∈ b) ∧ ∃ d ∈ b, d ∉ a

instance (a b : List String) : Decidable (strictSub a b) := by unfold strictSub; infer_instance

/-- constructor of `DimFlusher1D` after the choice of names, xoa/coords.py:367-449.
`cin` is the coordinate `da_in.coords[coord_in_name]` (its dimensions are dimensions of `da_in`). -/
def flush (da cin cout : LArr V) (dim0 dim1 : String) : Except CErr Flushed := do
  -- :369-372
  let odims0 := da.dims.filter (· ≠ dim0)
  let odims1 := cout.dims.filter (· ≠ dim1)
  if (∃ d ∈ odims0, d ∉ odims1) ∧ (∃ d ∈ odims1, d ∉ odims0) then Except.error CErr.xoaError
  else do
  -- :374-381, in the order of da_in
  let cdims0 := da.dims.filter (fun d => d ∈ odims0 ∧ d ∈ odims1 ∧ d ≠ dim0)
  if ∃ d ∈ cdims0, da.size d ≠ cout.size d then Except.error CErr.assertionError
  else do
  -- :399-402; coordinates of da_in are transposed in the order of its dimensions
  let da' ← xrTranspose da (none :: (cdims0 ++ [dim0]).map some)
  let cin' := cin.permute (da'.dims.filter (· ∈ cin.dims))
  let cout' ← xrTranspose cout (none :: (cdims0 ++ [dim1]).map some)
  -- :406-408
  let da'' := if strictSub da'.dims.dropLast cout'.dims.dropLast then da'.broadcastLike cout' dim0 dim1 else da'
  -- :412-424: a set is never an element of a set of strings
  let cin'' := if cout'.dims.length > 1 then cin'.broadcastLike cout' dim0 dim1 else cin'
  -- :426-429
  let cout'' := if cout'.dims.length > 1 ∧ strictSub cout'.dims.dropLast cin''.dims.dropLast
    then cout'.broadcastLike cin'' dim0 dim1 else cout'
  -- :437-449
  let mda ← da''.flat2
  let mci ← cin''.flat2
  let mco ← cout''.flat2
  Except.ok ⟨mda, mci, mco, da''.shape.dropLast ++ [cout''.size dim1], da''.dims.dropLast ++ [dim1],
    da.dims.map (fun d => if d = dim0 then dim1 else d)⟩

/-- `get_back(data_out)`, xoa/coords.py:451-461: values and dimensions of the result -/
def getBack (f : Flushed) (m : Mat) : Except CErr (LArr V) := do
  let a ← unflat2 m f.workDims f.workShape
  xrTranspose a (none :: f.finalDims.map some)

/-- the data path of `regrid1d`: flatten, interpolate the rows, restore, xoa/regrid.py:99-101, 125, 133 -/
def regridWith (K : Mat → Mat → Mat → Mat) (da cin cout : LArr V) (dim0 dim1 : String) : Except CErr (LArr V) := do
  let f ← flush da cin cout dim0 dim1
  getBack f (K f.daIn f.coordIn f.coordOut)

/-! ## reorder -/

/-- loop of `reorder`, xoa/coords.py:518-527, on the reversed order; `types` gives the type of each dimension -/
def reorderDims (dims : List String) (types : String → Option Char) (ndim : Nat) : List (Nat × Char) → List String → Except CErr (List String)
  | [], acc => .ok acc
  | (i, o) :: rest, acc =>
    if i + 1 = ndim then .ok acc
    else match dims.find? (fun d => types d = some o) with
      | some d => reorderDims dims types ndim rest (d :: acc)
      | none => .error .xoaError

/-- `reorder(da, order)`, xoa/coords.py:490-530, with `order` a string, if `get_dim_types(da, asdict=True)`
answered `types`. In the code that call always raises (`da` is given twice, xoa/coords.py:486-487 and
xoa/cf.py:2031), see `reorderCode`. -/
def reorderTo {α} (a : LArr α) (types : String → Option Char) (order : List Char) : Except CErr (LArr α) := do
  let ds ← reorderDims a.dims types a.dims.length ((List.range order.length).zip order.reverse) []
  transposeTo a (ds.map some) (fun _ => none) .compat

/-- `get_dim_types(da)`, xoa/coords.py:464-487: the method called has the parameters
`(self, da, unknown, asdict)` (xoa/cf.py:2031), `da` is passed by position and by name: `TypeError` -/
def getDimTypesCode {α} (_ : LArr α) (_ : String → Option Char) : Except CErr (String → Option Char) := .error .typeError

/-- `reorder(da, order)` as it is, xoa/coords.py:490-530 -/
def reorderCode {α} (a : LArr α) (types : String → Option Char) (order : List Char) : Except CErr (LArr α) := do
  let t ← getDimTypesCode a types
  reorderTo a t order

end Xoa
