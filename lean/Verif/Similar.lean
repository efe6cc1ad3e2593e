import Verif.CfDims

/-!
# Model of the registration of the accessors (xoa/__init__.py, xoa/accessors.py) and of the comparison
of arrays (`are_similar` and `search_similar` of xoa/cf.py)
-/

namespace Xoa

/-! ## registration of the accessors -/

/-- the accessor classes of xoa/accessors.py -/
inductive AccCls
  | cfArray      -- CFDataArrayAccessor
  | cfDataset    -- CFDatasetAccessor
  | sigma        -- SigmaAccessor
  | xoaArray     -- XoaDataArrayAccessor
  | xoaDataset   -- XoaDatasetAccessor
  deriving DecidableEq, Repr

/-- the accessors of the arrays and of the datasets: attributes of the two xarray classes -/
structure Registry where
  arrays : List (Str × AccCls) := []
  datasets : List (Str × AccCls) := []
  deriving DecidableEq

/-- `register_cf_accessors(name)`, xoa/accessors.py:254-259 with 236-251: a new registration under the
same name replaces the previous one -/
def registerCf (name : Str) (r : Registry) : Registry :=
  ⟨setS name .cfArray r.arrays, setS name .cfDataset r.datasets⟩

/-- `register_sigma_accessor(name)`, xoa/accessors.py:262-264 -/
def registerSigma (name : Str) (r : Registry) : Registry := ⟨r.arrays, setS name .sigma r.datasets⟩

/-- `register_xoa_accessors(name)`, xoa/accessors.py:267-272 -/
def registerXoa (name : Str) (r : Registry) : Registry :=
  ⟨setS name .xoaArray r.arrays, setS name .xoaDataset r.datasets⟩

/-- an argument of `register_accessors`: a boolean or a name -/
inductive RegArg
  | bool (b : Bool)
  | name (s : Str)
  deriving DecidableEq

/-- `if arg:` -/
def RegArg.truthy : RegArg → Bool
  | .bool b => b
  | .name s => !s.isEmpty

/-- the name in `kw`, else the default of the function -/
def RegArg.nameOr (a : RegArg) (dflt : Str) : Str :=
  match a with
  | .bool _ => dflt
  | .name s => s

/-- `register_accessors(xoa, cf, sigma)`, xoa/__init__.py:508-535. The name of the main accessor is taken
from `cf` (526). -/
def registerAccessors (xoa cf sigma : RegArg) (r : Registry) : Registry :=
  let r1 := if xoa.truthy then registerXoa (cf.nameOr "xoa".toList) r else r
  let r2 := if cf.truthy then registerCf (cf.nameOr "cfd".toList) r1 else r1
  if sigma.truthy then registerSigma (sigma.nameOr "decode_sigma".toList) r2 else r2

/-! ## similar arrays -/

inductive SimErr
  | attributeError
  | recursion            -- AttributeError raised in the property `name` of an accessor with `__getattr__`
  | matching (e : MErr)
  deriving DecidableEq, Repr

/-- an array: name and attributes, and whether it is a coordinate for `get_category` (xoa/cf.py:1161-1179) -/
structure SimArr where
  obj : DObj
  isCoord : Bool

/-- `_same_attr_`, xoa/cf.py:2257-2259: a value that is not a text has no method `lower` -/
def sameAttr (a b : SimArr) (k : Str) : Except SimErr Bool :=
  match a.obj.attr k, b.obj.attr k with
  | some (.str s), some (.str t) => .ok (decide (lower s = lower t))
  | some _, some _ => .error .attributeError
  | _, _ => .ok false

/-- `da.cf.name`, with xoa/accessors.py:157-163: the attribute `cf` must have been registered (other
packages that register an accessor under this name are not modelled) -/
def cfAccName (sg : SG) (two : CfTwo) (r : Registry) (a : SimArr) : Except SimErr (Option Str) :=
  match lookupS "cf".toList r.arrays with
  | none => .error .attributeError
  | some _ => match specsMatch sg two a.isCoord .any a.obj with
    | .ok n => .ok (n.map (·.2))
    | .error .attributeError => .error .recursion
    | .error e => .error (.matching e)

/-- the test of line 2286: `da0.cf.name and da1.cf.name and da0.cf.name == da1.cf.name` -/
def sameCfName (sg : SG) (two : CfTwo) (r : Registry) (a b : SimArr) : Except SimErr Bool :=
  (cfAccName sg two r a).bind fun n =>
    if n = none ∨ n = some [] then .ok false
    else (cfAccName sg two r b).map fun m => decide (n = m)

/-- the test of line 2290: `da0.name and da0.name and da0.name == da1.name` -/
def sameName (a b : SimArr) : Bool :=
  decide (a.obj.name ≠ none ∧ a.obj.name ≠ some [] ∧ a.obj.name = b.obj.name)

/-- `are_similar(da0, da1)`, xoa/cf.py:2262-2294 -/
def areSimilar (sg : SG) (two : CfTwo) (r : Registry) (a b : SimArr) : Except SimErr Bool :=
  (sameAttr a b "standard_name".toList).bind fun s =>
    if s then .ok true
    else (sameCfName sg two r a b).bind fun c =>
      if c then .ok true
      else if sameName a b then .ok true
      else sameAttr a b "long_name".toList

/-- the loop of `search_similar`, xoa/cf.py:2317-2319 -/
def similarLoop (sg : SG) (two : CfTwo) (r : Registry) (da : SimArr) : List SimArr → Except SimErr (Option SimArr)
  | [] => .ok none
  | t :: ts => (areSimilar sg two r t da).bind fun b => if b then .ok (some t) else similarLoop sg two r da ts

/-- the object to be scanned: an array or a dataset (data variables) with its coordinates -/
structure ScanObj where
  dataVars : Option (List SimArr)
  coords : List SimArr

/-- `search_similar(dsa, da)`, xoa/cf.py:2297-2319. The coordinates scanned are those of `da` (`daCoords`),
and an array has no `data_vars`. -/
def searchSimilar (sg : SG) (two : CfTwo) (r : Registry) (dsa : ScanObj) (da : SimArr) (daCoords : List SimArr) :
    Except SimErr (Option SimArr) :=
  if dsa.dataVars.isSome then .error .attributeError
  else similarLoop sg two r da daCoords

end Xoa
