import Verif.CfMatch
import Verif.CfInherit

/-!
# Model of the dimension methods of `CFCoordSpecs` (xoa/cf.py), of the multi-category search of `CFSpecs`,
of the coordinate getters (xoa/coords.py) and of the accessors (xoa/accessors.py)
-/

namespace Xoa

/-! ## axis and dimension types -/

/-- an array as seen by `get_axis`: its dimensions, its `axis` attribute and the axis of the CF coordinate
that it matches (`None` when it matches nothing or when that coordinate has no axis) -/
structure AxArr where
  dims : List Str
  axisAttr : Option Str
  cfAxis : Option Str
  deriving DecidableEq, Repr

/-- an array with coordinates: itself, and its named coordinates in order -/
structure DArr where
  self : AxArr
  coords : List (Str × AxArr)
  deriving Repr

/-- `get_axis(coord, lower=True)`, xoa/cf.py:1945-1975 -/
def getAxisL (a : AxArr) : Option Str := (match a.axisAttr with | some s => some s | none => a.cfAxis).map lower

inductive DErr
  | notADim          -- XoaCFError "dimension ... does not belong to da"
  | invalidDim       -- XoaError "Invalid dimension"
  | tooMany          -- XoaError "this data array has less dimensions"
  | noDim            -- XoaError "no dimension found of type"
  | indexError
  | unboundLocal
  deriving DecidableEq, Repr

/-- `get_dim_type(dim, da)`, xoa/cf.py:1977-2029; `types` is the ordered dictionary `self.dims` -/
def getDimType (sg : SG) (types : CfDims) (dim : Str) (da : Option DArr) : Except DErr (Option Str) :=
  let d := (parseAttr sg .name dim).1
  match types.find? (fun p => decide (lower d ∈ p.2)) with
  | some p => .ok (some p.1)
  | none => match da with
    | none => .ok none
    | some da =>
      if d ∉ da.self.dims then .error .notADim
      else match lookupS d da.coords with
        | some c => .ok (getAxisL c)
        | none => match getAxisL da.self with
          | some a => .ok (if a = [] then none else some a)
          | none => .ok none

/-- the loop of `get_dim_types`, xoa/cf.py:2055-2060 -/
def dimTypesLoop (sg : SG) (types : CfDims) (da : DArr) (unknown : Option Str) :
    List Str → List (Str × Option Str) → Except DErr (List (Str × Option Str))
  | [], acc => .ok acc
  | d :: ds, acc => (getDimType sg types d (some da)).bind fun t =>
      dimTypesLoop sg types da unknown ds (setS d (t.elim unknown some) acc)

/-- `get_dim_types(da, unknown, asdict=True)`, xoa/cf.py:2031-2063 -/
def getDimTypes (sg : SG) (types : CfDims) (da : DArr) (unknown : Option Str) : Except DErr (List (Str × Option Str)) :=
  dimTypesLoop sg types da unknown da.self.dims []

/-- the filter on the location, xoa/cf.py:2098-2100; `loc = none` stands for `"any"` -/
def locSkip (sg : SG) (loc : Option Str) (dim : Str) : Bool :=
  match loc with
  | none => false
  | some l => match (parseAttr sg .name dim).2 with
    | none => false
    | some p => decide (p ≠ [] ∧ l ≠ [] ∧ l ≠ p)

/-- the loop of `search_dim` with a type, xoa/cf.py:2094-2109 -/
def searchDimLoop (sg : SG) (types : CfDims) (da : DArr) (dimType : Str) (loc : Option Str) : List Str → Except DErr (Option Str)
  | [] => .ok none
  | d :: ds =>
    if locSkip sg loc d then searchDimLoop sg types da dimType loc ds
    else (getDimType sg types d (some da)).bind fun t =>
      if t = some dimType ∧ dimType ≠ [] then .ok (some d) else searchDimLoop sg types da dimType loc ds

/-- `search_dim(da, dim_type, loc)` with a type, xoa/cf.py:2065-2121 -/
def searchDim (sg : SG) (types : CfDims) (da : DArr) (dimType : Str) (loc : Option Str) : Except DErr (Option Str) :=
  searchDimLoop sg types da (lower dimType) loc da.self.dims

/-- the loop of `search_dim` without type, xoa/cf.py:2094-2113: the dimension found, or the type of the
last dimension that was looked at -/
def searchDimLoop0 (sg : SG) (types : CfDims) (da : DArr) (axis : Option Str) (loc : Option Str) :
    List Str → Option (Option Str) → Except DErr (Str × Str ⊕ Option (Option Str))
  | [], last => .ok (.inr last)
  | d :: ds, last =>
    if locSkip sg loc d then searchDimLoop0 sg types da axis loc ds last
    else (getDimType sg types d (some da)).bind fun t =>
      match axis with
      | some a => if a ≠ [] ∧ t = some a then .ok (.inl (d, a)) else searchDimLoop0 sg types da axis loc ds (some t)
      | none => searchDimLoop0 sg types da axis loc ds (some t)

/-- `search_dim(da, None, loc)`, xoa/cf.py:2065-2121: a dimension and its type, or nothing. In the 1D case
(2115-2116) the type is an unbound variable when the dimension was skipped. -/
def searchDim0 (sg : SG) (types : CfDims) (da : DArr) (loc : Option Str) : Except DErr (Option Str × Option Str) :=
  (searchDimLoop0 sg types da (getAxisL da.self) loc da.self.dims none).bind fun r =>
    match r with
    | .inl (d, t) => .ok (some d, some t)
    | .inr last => match da.self.dims with
      | [d] => match last with
        | some t => .ok (some d, t)
        | none => .error .unboundLocal
      | _ => .ok (none, none)

/-! ## coordinate of a dimension -/

/-- stable insertion by decreasing number of dimensions -/
def insertByNdim (c : Str × AxArr) : List (Str × AxArr) → List (Str × AxArr)
  | [] => [c]
  | d :: ds => if d.2.dims.length ≥ c.2.dims.length then d :: insertByNdim c ds else c :: d :: ds

/-- `sorted(..., key=attrgetter('ndim'), reverse=True)`, xoa/cf.py:2170-2172 (stable) -/
def sortByNdim (l : List (Str × AxArr)) : List (Str × AxArr) := l.foldl (fun acc c => insertByNdim c acc) []

/-- `search_from_dim(da, dim)`, xoa/cf.py:2123-2176 -/
def searchFromDim (sg : SG) (types : CfDims) (da : DArr) (dim : Str) : Except DErr (Option (Str × AxArr)) :=
  if dim ∉ da.self.dims then .error .invalidDim
  else
    let rest : Except DErr (Option (Str × AxArr)) :=
      (getDimType sg types dim (some da)).bind fun t =>
        match t with
        | none => .ok none
        | some t => .ok ((sortByNdim da.coords).find? (fun c => decide (dim ∈ c.2.dims ∧ t ≠ [] ∧ getAxisL c.2 = some t)))
    match lookupS dim da.coords with
    | some c => if da.coords.all (fun p => decide (p.1 = dim ∨ dim ∉ p.2.dims)) then .ok (some (dim, c)) else rest
    | none => rest

/-! ## get_dims -/

/-- the loop on the types, xoa/cf.py:2216-2219 -/
def scanTypes (sg : SG) (types : CfDims) (da : DArr) : List Str → List (Str × Option Str) → Except DErr (List (Str × Option Str))
  | [], acc => .ok acc
  | t :: ts, acc => (searchDim sg types da t none).bind fun d => scanTypes sg types da ts (setS t d acc)

/-- "Guess from position", xoa/cf.py:2221-2227; `i` is the index in the reversed positions -/
def guessLoop (dims : List Str) (notFound : List Str) : List Char → Nat → List (Str × Option Str) → Except DErr (List (Str × Option Str))
  | [], _, acc => .ok acc
  | c :: cs, i, acc =>
    if [c] ∈ notFound then
      match dims.reverse[i]? with
      | some d => guessLoop dims notFound cs (i + 1) (setS [c] (some d) acc)
      | none => .error .indexError
    else guessLoop dims notFound cs (i + 1) acc

/-- `get_dims(da, dim_types, allow_positional, positions, errors)`, xoa/cf.py:2179-2238. Returns the values of
the dictionary `scanned` and the number of warnings. -/
def getDims (sg : SG) (types : CfDims) (da : DArr) (dimTypes : List Str) (allowPositional : Bool) (positions : Str) (errors : EMode) :
    Except DErr (List (Option Str) × Nat) :=
  if errors = .raise ∧ dimTypes.length > da.self.dims.length then .error .tooMany
  else
    let w := if errors = .warn ∧ dimTypes.length > da.self.dims.length then 1 else 0
    (scanTypes sg types da dimTypes []).bind fun scanned =>
    (if allowPositional then
        guessLoop da.self.dims ((scanned.filter (fun p => p.2.isNone)).map (·.1)) positions.reverse 0 scanned
      else .ok scanned).bind fun scanned =>
    let missing := (scanned.filter (fun p => p.2.isNone)).length
    if errors = .raise ∧ missing > 0 then .error .noDim
    else .ok (scanned.map (·.2), w + if errors = .warn then missing else 0)

/-! ## search in the two categories -/

/-- a dataset or an array as seen by the searches: the variables of `data_vars` (`none` for an array, which has
no such attribute) and of `coords` -/
structure DSA where
  dataVars : Option (List DObj)
  coords : List DObj

/-- the two categories of specifications -/
structure CfTwo where
  dataVars : CfCat
  coords : CfCat

/-- the objects scanned by a category, xoa/cf.py:1653-1656: an array is scanned through its coordinates -/
def DSA.objs (dsa : DSA) (vars : Bool) : List DObj := if vars then dsa.dataVars.getD dsa.coords else dsa.coords

/-- the order of the categories, xoa/cf.py:1368-1370 -/
def DSA.cats (dsa : DSA) : List Bool := if dsa.dataVars.isSome then [true, false] else [false, true]

def CfTwo.cat (two : CfTwo) (vars : Bool) : CfCat := if vars then two.dataVars else two.coords

/-- the loop of `CFSpecs.search` with `single=True`, xoa/cf.py:1378-1385 -/
def specsLoop (sg : SG) (two : CfTwo) (dsa : DSA) (loc : MLoc) (name : Str) : List Bool → Except MErr (Option (DObj × Str))
  | [] => .ok none
  | v :: vs => (searchName sg (two.cat v) loc (dsa.objs v) name .ignore).bind fun r =>
      match r.1 with
      | some x => .ok (some x)
      | none => specsLoop sg two dsa loc name vs

/-- `CFSpecs.search(dsa, name, loc, errors=errors)`, xoa/cf.py:1350-1392, without explicit categories: the item
and the number of warnings -/
def specsSearch (sg : SG) (two : CfTwo) (dsa : DSA) (loc : MLoc) (name : Str) (errors : EMode) : Except MErr (Option (DObj × Str) × Nat) :=
  (specsLoop sg two dsa loc name dsa.cats).bind fun r =>
    match r with
    | some x => .ok (some x, 0)
    | none => match errors with
      | .ignore => .ok (none, 0)
      | .warn => .ok (none, 1)
      | .raise => .error .notFound

/-- `CFSpecs.match(da)`, xoa/cf.py:1161-1207: `isCoord` tells if the name of the array is one of its
dimensions or coordinates; the category (`true` for `data_vars`) and the name -/
def specsMatch (sg : SG) (two : CfTwo) (isCoord : Bool) (loc : MLoc) (da : DObj) : Except MErr (Option (Bool × Str)) :=
  (matchAny sg (two.cat (!isCoord)) loc da).bind fun r =>
    match r with
    | some n => if n = [] then (matchAny sg (two.cat isCoord) loc da).map (fun r => r.bind fun n => if n = [] then none else some (isCoord, n)) else .ok (some (!isCoord, n))
    | none => (matchAny sg (two.cat isCoord) loc da).map (fun r => r.bind fun n => if n = [] then none else some (isCoord, n))

/-! ## coordinate getters, xoa/coords.py -/

inductive GErr
  | search (e : MErr)
  | badChoice        -- XoaError of `misc.ERRORS["errors"]`
  deriving DecidableEq, Repr

/-- `get_lon`, `get_lat`, `get_depth`, `get_altitude`, xoa/coords.py:28-85: `search(da, name)` with its default
`errors="warn"`; the argument `errors` is not used -/
def getCoordAny (sg : SG) (two : CfTwo) (dsa : DSA) (name : Str) (_errors : EMode) : Except GErr (Option (DObj × Str) × Nat) :=
  (specsSearch sg two dsa .any name .warn).mapError .search

/-- `get_level` and `get_time`, xoa/coords.py:88-100 and 129-141: `coords.search(da, name)` with its default
`errors="raise"`; the argument `errors` of `get_level` is not used, `get_time` has none -/
def getCoordStrict (sg : SG) (two : CfTwo) (dsa : DSA) (name : Str) (_errors : EMode) : Except GErr (Option (DObj × Str) × Nat) :=
  (searchName sg two.coords .any dsa.coords name .raise).mapError .search

/-- `get_cf_coords`, xoa/coords.py:145-158: `search_coord(da, name)` for each name with its default
`errors="warn"` (xoa/cf.py:1210-1258); the argument `errors` is not used. The warnings are not followed here -/
def getCfCoords (sg : SG) (two : CfTwo) (dsa : DSA) (names : List Str) (_errors : EMode) : Except GErr (List (Option (DObj × Str))) :=
  (names.mapM fun n => (searchName sg two.coords .any dsa.coords n .warn).map Prod.fst).mapError .search

/-- `get_vertical`, xoa/coords.py:103-126: `misc.ERRORS["errors"]` (120) is the choice of the literal `"errors"`,
which is not a valid one: an exception whatever the mode -/
def getVertical (sg : SG) (two : CfTwo) (dsa : DSA) (_errors : EMode) : Except GErr (Option (DObj × Str) × Nat) :=
  ((specsSearch sg two dsa .any "depth".toList .ignore).mapError .search).bind fun r =>
    match r.1 with
    | some x => .ok (some x, 0)
    | none => ((specsSearch sg two dsa .any "altitude".toList .ignore).mapError .search).bind fun r =>
      match r.1 with
      | some x => .ok (some x, 0)
      | none => .error .badChoice

/-! ## accessors -/

/-- the outcome of an access -/
inductive AccErr
  | search (e : MErr)
  | dim (e : DErr)
  | typeError
  | keyError
  deriving DecidableEq, Repr

/-- an accessor on the coordinates: the specifications, the array, and `attr in self.attrs` (accessors.py:178) for
the attribute `_dims` (always `False` for `_CoordAccessor_`) -/
structure Acc where
  sg : SG
  two : CfTwo
  types : CfDims
  dsa : DSA
  da : DArr
  hasAttr : Bool

/-- `get_dim(dim_type)`, xoa/accessors.py:117-124, with the instance attribute `_dims` as state. `hasattr(self,
'_dims')` calls `__getattr__` (accessors.py:71-72 and 177-180), i.e. a search for a coordinate of this name, and is true
unless it raises an `AttributeError`; `self._dims` is then the result of this search. -/
def accGetDim (a : Acc) (dims : Option (List (Str × Option Str))) (t : Str) : Except AccErr (Option Str) × Option (List (Str × Option Str)) :=
  let t := lower t
  match dims with
  | some d => (match lookupS t d with | some r => .ok r | none => .error .keyError, dims)
  | none =>
    if a.hasAttr then (.error .typeError, none)
    else match searchName a.sg a.two.coords .any a.dsa.coords "_dims".toList .warn with
      | .error .attributeError =>
        (match searchDim a.sg a.types a.da t none with
          | .ok r => (.ok r, some [(t, r)])
          | .error e => (.error (.dim e), some []))
      | .error e => (.error (.search e), none)
      | .ok (none, _) => (.error .typeError, none)      -- None[dim_type]
      | .ok (some _, _) => (.error .keyError, none)     -- array[dim_type]

/-- a sequence of accesses on one accessor: the outcomes -/
def accRun (a : Acc) : Option (List (Str × Option Str)) → List Str → List (Except AccErr (Option Str))
  | _, [] => []
  | s, t :: ts => (accGetDim a s t).1 :: accRun a (accGetDim a s t).2 ts

/-- the property `name` of the array accessor, xoa/accessors.py:157-163: computed once; `da` is the array as it is
when the property is read -/
def accName (sg : SG) (two : CfTwo) (cache : Option (Option (Bool × Str))) (isCoord : Bool) (da : DObj) :
    Except MErr (Option (Bool × Str)) × Option (Option (Bool × Str)) :=
  match cache with
  | some r => (.ok r, cache)
  | none => match specsMatch sg two isCoord .any da with
    | .ok r => (.ok r, some r)
    | .error e => (.error e, none)

end Xoa
