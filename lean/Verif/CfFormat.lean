import Verif.CfMatch

/-!
# Model of the formatting methods (xoa/cf.py): `SGLocator.format_dataarray`, `get_attrs`, `get_name`,
`format_dataarray`, `rename_dataarray`, `format_data_var`, `format_dataset`, `fill_attrs`

A variable has dimensions, attributes and data of any type `α`, which no method touches. Names of
coordinates and dimensions are `Option Str` because formatting may rename them to `None`. A copy
(`da.copy()`, `ds.copy()`) has its own attribute dictionaries, and an array of `da.coords.items()` or
`ds.items()` shares them with the variable of its parent (xarray). The attribute `name`, if any, is not
distinguished from the name of the array by `getattr`.
-/

namespace Xoa

abbrev Attrs := List (Str × AttrVal)

/-- an xarray variable -/
structure FVar (α : Type) where
  dims : List (Option Str)
  attrs : Attrs
  data : α

/-- a data array with its coordinates -/
structure FArr (α : Type) where
  name : Option Str
  var : FVar α
  coords : List (Option Str × FVar α)

/-- a dataset -/
structure FDs (α : Type) where
  vars : List (Option Str × FVar α)
  coords : List (Option Str × FVar α)

inductive FErr
  | matching (e : MErr)    -- raised by `match`
  | assertion              -- `assert name in self.names`
  | attrs                  -- raised while formatting the attributes
  | name (e : SGErr)       -- raised while formatting the name
  | valueError             -- xarray: the new name conflicts
  deriving DecidableEq, Repr

/-- an attribute as seen by the matching methods -/
def AttrVal.toAVal : AttrVal → AVal
  | .str s => .str s
  | .list l => .other (!l.isEmpty)
  | .other n => .other (n != 0)

/-- `getattr(da, attr, None)` -/
def dobjOf (name : Option Str) (attrs : Attrs) : DObj := ⟨name, fun k => (lookupS k attrs).map AttrVal.toAVal⟩

/-! ## attributes and names from the specifications -/

/-- the value kept for an attribute of the specifications, xoa/cf.py:1755-1765. Attributes of value
`None` are left out: all uses of the result skip them (xoa/cf.py:472). -/
def specValue (multi : Bool) (k : Str) : Refs → Option AttrVal
  | .list [] => none
  | .list (x :: l) => if multi = true ∧ (k = "standard_name".toList ∨ k = "long_name".toList) then some (.list (x :: l)) else some (.str x)
  | .text s => some (.str s)
  | .none_ => none

/-- the loop on the attributes, xoa/cf.py:1751-1765 -/
def specAttrs (multi : Bool) : List (Str × Refs) → Attrs
  | [] => []
  | (k, r) :: rest => match specValue multi k r with
    | some v => (k, v) :: specAttrs multi rest
    | none => specAttrs multi rest

/-- the `exclude` argument -/
inductive ExclArg
  | none
  | str (s : Str)
  | list (l : List Str)
  deriving DecidableEq, Repr

/-- `get_attrs(name, select, exclude, loc, multi, standardize, **extra)` of a known name,
xoa/cf.py:1710-1777: the attributes, and the caller's `exclude` list after the call (`exclude.extend`,
:1745, works on the list that was given). The set `keys` made of `select` and `exclude` (1747-1750) is
computed, and not used by the loop. -/
def getAttrs (sg : SG) (spec : CfSpec) (select : Option (List Str)) (exclude : ExclArg) (loc : LocArg) (multi standardize : Bool)
    (extra : Attrs) : Except SGErr Attrs × ExclArg :=
  let excl : List Str := match exclude with
    | .none => []
    | .str s => [s]
    | .list l => l
  let excl := excl ++ extra.map (·.1)
  let _keys := ((spec.attrs.map (·.1)).filter (fun k => decide (k ∉ excl))).filter (fun k => match select with
    | none => true
    | some l => l.isEmpty || decide (k ∈ l))
  (formatAttrs sg loc standardize (updateS (specAttrs multi spec.attrs) extra),
   match exclude with
   | .list _ => .list excl
   | e => e)

/-- `get_name(name, specialize, loc)` of a known name, xoa/cf.py:1779-1803 -/
def getCfName (sg : SG) (spec : CfSpec) (name : Str) (specialize : Bool) (loc : LocArg) : Except SGErr Str :=
  formatAttr sg .name (if specialize then spec.names.headD name else name) loc true

/-! ## formatting one array -/

/-- `SGLocator.format_dataarray(da, loc, standardize, name, attrs, rename, replace_attrs)`, xoa/cf.py:499-552, on the name and
the attributes of the array. `standardize` is not given to `merge_attr` for the name (:550). -/
def sgFormat (sg : SG) (nm : Option Str) (attrs : Attrs) (loc : LocArg) (standardize : Bool) (name : Option Str) (patch : Attrs)
    (rename replace : Bool) : Except FErr (Option Str × Attrs) :=
  let new : Option Attrs :=
    if patch = [] then (formatAttrs sg loc standardize attrs).toOption
    else patchAttrs sg attrs patch loc standardize replace
  match new with
  | none => .error .attrs
  | some new =>
    let attrs' := updateS attrs new
    if rename = true ∨ nm = none then
      match mergeAttr sg .name nm name loc true with
      | .ok nm' => .ok (nm', attrs')
      | .error e => .error (.name e)
    else .ok (nm, attrs')

/-- the `attrs` argument -/
inductive AttrsArg
  | cf                     -- `True`
  | no                     -- `False`
  | dict (d : Attrs)
  deriving DecidableEq, Repr

/-- the options of `format_dataarray`, xoa/cf.py:1805-1808 -/
structure FOpts where
  name : Option Str := none
  loc : LocArg := .keep
  attrs : AttrsArg := .cf
  standardize : Bool := true
  specialize : Bool := false
  renameDim : Bool := true
  replace : Bool := false

/-- the name used for formatting, xoa/cf.py:1854-1860: the given one, which must be known, or the one
that matches -/
def usedName (sg : SG) (cat : CfCat) (o : FOpts) (nm : Option Str) (attrs : Attrs) : Except FErr (Option (Str × CfSpec)) :=
  match o.name with
  | some n => match lookupS n cat with
    | some spec => .ok (some (n, spec))
    | none => .error .assertion
  | none => match matchAny sg cat .any (dobjOf nm attrs) with
    | .error e => .error (.matching e)
    | .ok none => .ok none
    | .ok (some n) => match lookupS n cat with
      | some spec => .ok (some (n, spec))
      | none => .error .assertion

/-- the attributes to set, xoa/cf.py:1865-1870 -/
def patchOf (sg : SG) (spec : CfSpec) : AttrsArg → Except SGErr Attrs
  | .cf => (getAttrs sg spec none .none .keep true false []).1
  | .no => .ok []
  | .dict d => .ok d

/-- the name and attributes made by `format_dataarray` once the CF name is known, xoa/cf.py:1861-1886:
the (possibly new) name and attributes of the array, and the name returned with `rename=False` -/
def formatWith (sg : SG) (o : FOpts) (rename : Bool) (n : Str) (spec : CfSpec) (nm : Option Str) (attrs : Attrs) :
    Except FErr ((Option Str × Attrs) × Option Str) :=
  match getCfName sg spec n o.specialize .keep with
  | .error e => .error (.name e)
  | .ok newName => match patchOf sg spec o.attrs with
    | .error _ => .error .attrs
    | .ok patch => match sgFormat sg nm attrs o.loc o.standardize (some newName) patch rename o.replace with
      | .error e => .error e
      | .ok r => if rename then .ok (r, none) else
        match mergeAttr sg .name nm (some newName) o.loc true with
        | .ok m => .ok (r, m)
        | .error e => .error (.name e)

/-- the new name of a coordinate or dimension -/
def newKey (m : List (Str × Option Str)) : Option Str → Option Str
  | none => none
  | some s => (lookupS s m).getD (some s)

def renameVar {α} (m : List (Str × Option Str)) (v : FVar α) : FVar α := { v with dims := v.dims.map (newKey m) }

/-- `DataArray.rename(dict)` of xarray: coordinates and dimensions are renamed, a `ValueError` is raised
if two coordinates get the same name (keys that do not exist are not modelled: here they do) -/
def renameArr {α} (m : List (Str × Option Str)) (a : FArr α) : Except FErr (FArr α) :=
  let cs : List (Option Str × FVar α) := a.coords.map (fun p => (newKey m p.1, renameVar m p.2))
  if (List.map Prod.fst cs).Nodup then .ok { a with var := renameVar m a.var, coords := cs } else .error .valueError

/-- `Dataset.rename(dict)` of xarray -/
def renameDs {α} (m : List (Str × Option Str)) (ds : FDs α) : Except FErr (FDs α) :=
  let vs : List (Option Str × FVar α) := ds.vars.map (fun p => (newKey m p.1, renameVar m p.2))
  let cs : List (Option Str × FVar α) := ds.coords.map (fun p => (newKey m p.1, renameVar m p.2))
  if (List.map Prod.fst (vs ++ cs)).Nodup then .ok ⟨vs, cs⟩ else .error .valueError

/-- `format_dataarray(da, ..., rename=True)`, xoa/cf.py:1805-1893 (the array is always copied, :1849) -/
def formatArr {α} (sg : SG) (cat : CfCat) (o : FOpts) (a : FArr α) : Except FErr (FArr α) :=
  match usedName sg cat o a.name a.var.attrs with
  | .error e => .error e
  | .ok none => .ok a
  | .ok (some (n, spec)) => match formatWith sg o true n spec a.name a.var.attrs with
    | .error e => .error e
    | .ok (r, _) =>
      let new : FArr α := { a with name := r.1, var := { a.var with attrs := r.2 } }
      match a.name with
      | some old => if o.renameDim = true ∧ a.var.dims = [some old] then renameArr [(old, r.1)] new else .ok new
      | none => .ok new

/-- `format_dataarray(da, ..., rename=False, copy=False)`, xoa/cf.py:1805-1893: the name and attributes
of the array are changed in place, and the name is returned (`None` if nothing matches) -/
def formatInPlace (sg : SG) (cat : CfCat) (o : FOpts) (nm : Option Str) (attrs : Attrs) :
    Except FErr ((Option Str × Attrs) × Option Str) :=
  match usedName sg cat o nm attrs with
  | .error e => .error e
  | .ok none => .ok ((nm, attrs), none)
  | .ok (some (n, spec)) => formatWith sg o false n spec nm attrs

/-- `format_dataarray(da, ..., rename=False, copy=True)`: the name only; the formatted copy is lost -/
def formatNameOnly (sg : SG) (cat : CfCat) (o : FOpts) (nm : Option Str) (attrs : Attrs) : Except FErr (Option Str) :=
  (formatInPlace sg cat o nm attrs).map (·.2)

/-- `rename_dataarray(da, name, specialize, loc, standardize, rename_dim)`, xoa/cf.py:1895-1931 -/
def renameDataarray {α} (sg : SG) (cat : CfCat) (o : FOpts) (a : FArr α) : Except FErr (FArr α) :=
  formatArr sg cat { o with attrs := .no } a

/-! ## arrays with coordinates, datasets -/

/-- the loop on coordinates, xoa/cf.py:1014-1024 and 1056-1061: new attributes, and the new names of the coordinates
(`format_coord(..., rename=False, copy=False)`). `names` is the `coords` argument. -/
def formatCoords {α} (sg : SG) (cat : CfCat) (loc : LocArg) (standardize replace : Bool) (names : List (Str × Str)) :
    List (Option Str × FVar α) → Except FErr (List (Option Str × FVar α) × List (Str × Option Str))
  | [] => .ok ([], [])
  | (k, v) :: rest =>
    match formatInPlace sg cat { name := k.bind (fun s => lookupS s names), loc := loc, standardize := standardize, replace := replace } k v.attrs with
    | .error e => .error e
    | .ok (r, new) => match formatCoords sg cat loc standardize replace names rest with
      | .error e => .error e
      | .ok (cs, m) => .ok ((k, { v with attrs := r.2 }) :: cs, match k with | some s => (s, new) :: m | none => m)

/-- a name that is true in a boolean context -/
def truthyName : Option Str → Bool
  | some (_ :: _) => true
  | _ => false

/-- `format_data_var` up to the last renaming, on the array itself (a copy or not), xoa/cf.py:994-1024: the array, the
new names of the coordinates and the name of the variable. A name that was not set is set in place even without
`rename` (xoa/cf.py:549). -/
def formatVarCore {α} (sg : SG) (vcat ccat : CfCat) (o : FOpts) (rename formatCoords_ : Bool) (names : List (Str × Str)) (a : FArr α) :
    Except FErr (FArr α × List (Str × Option Str) × Option Str) :=
  match formatInPlace sg vcat o a.name a.var.attrs with
  | .error e => .error e
  | .ok (r, new) =>
    let name' := if rename && truthyName new then new else r.1
    let a' : FArr α := { a with name := name', var := { a.var with attrs := r.2 } }
    if formatCoords_ then
      match formatCoords sg ccat o.loc o.standardize o.replace names a'.coords with
      | .error e => .error e
      | .ok (cs, m) => .ok ({ a' with coords := cs }, m, new)
    else .ok (a', [], new)

/-- `format_data_var(da, ..., rename=True, format_coords)`, xoa/cf.py:938-1034 -/
def formatDataVar {α} (sg : SG) (vcat ccat : CfCat) (o : FOpts) (formatCoords_ : Bool) (names : List (Str × Str)) (a : FArr α) :
    Except FErr (FArr α) :=
  match formatVarCore sg vcat ccat o true formatCoords_ names a with
  | .error e => .error e
  | .ok (a', m, _) => if m = [] then .ok a' else renameArr m a'

/-- what `format_data_var` returns: an array or a name -/
inductive FRes (α : Type)
  | arr (a : FArr α)
  | name (s : Option Str)

/-- `format_data_var(da, ..., rename=False, copy=True)`, xoa/cf.py:1030-1034: the name when the CF name
was not given, else the array -/
def formatDataVarKeep {α} (sg : SG) (vcat ccat : CfCat) (o : FOpts) (formatCoords_ : Bool) (names : List (Str × Str)) (a : FArr α) :
    Except FErr (FRes α) :=
  match formatVarCore sg vcat ccat o false formatCoords_ names a with
  | .error e => .error e
  | .ok (a', _, new) => match o.name with
    | none => .ok (.name new)
    | some _ => .ok (.arr a')

/-- the loop on the data variables of a dataset, xoa/cf.py:1047-1052; `standardize` is always true there -/
def formatVars {α} (sg : SG) (cat : CfCat) (loc : LocArg) (replace : Bool) :
    List (Option Str × FVar α) → Except FErr (List (Option Str × FVar α) × List (Str × Option Str))
  | [] => .ok ([], [])
  | (k, v) :: rest =>
    match formatInPlace sg cat { loc := loc, replace := replace } k v.attrs with
    | .error e => .error e
    | .ok (r, new) => match formatVars sg cat loc replace rest with
      | .error e => .error e
      | .ok (vs, m) => .ok ((k, { v with attrs := r.2 }) :: vs, match k with
          | some s => if truthyName new then (s, new) :: m else m
          | none => m)

/-- `format_dataset(ds, loc, rename, format_coords=True, replace_attrs)`, xoa/cf.py:1036-1074 -/
def formatDataset {α} (sg : SG) (vcat ccat : CfCat) (loc : LocArg) (rename replace : Bool) (ds : FDs α) : Except FErr (FDs α) :=
  match formatVars sg vcat loc replace ds.vars with
  | .error e => .error e
  | .ok (vs, m1) => match formatCoords sg ccat loc true replace [] ds.coords with
    | .error e => .error e
    | .ok (cs, m2) =>
      let m := m1 ++ m2
      if rename = true ∧ m ≠ [] then renameDs m ⟨vs, cs⟩ else .ok ⟨vs, cs⟩

/-- `fill_attrs(da)` of an array, xoa/cf.py:1091-1105 -/
def fillAttrsArr {α} (sg : SG) (vcat ccat : CfCat) (o : FOpts) (a : FArr α) : Except FErr (FRes α) :=
  formatDataVarKeep sg vcat ccat { o with replace := false } true [] a

/-- `fill_attrs(ds)` of a dataset, xoa/cf.py:1091-1105 -/
def fillAttrsDs {α} (sg : SG) (vcat ccat : CfCat) (loc : LocArg) (ds : FDs α) : Except FErr (FDs α) :=
  formatDataset sg vcat ccat loc false false ds

end Xoa
