import Verif.SGLoc

/-!
# Model of the CF matching and searching methods (xoa/cf.py, class `_CFCatSpecs_`)

An array is seen through `getattr(da, attr, None)`: its name and, for the other names, an arbitrary
partial function. A dataset is seen as the list of its variables in order.
-/

namespace Xoa

/-- the value of an attribute: a string, or anything else (number, array...) that is true or false -/
inductive AVal
  | str (s : Str)
  | other (truthy : Bool)
  deriving DecidableEq, Repr

/-- a data array: its name (`None` or a string) and `getattr(da, attr, None)` for the other attributes -/
structure DObj where
  name : Option Str
  attr : Str → Option AVal

/-- `getattr(da, attr, None)`, xoa/cf.py:1613 -/
def DObj.get (da : DObj) (a : Str) : Option AVal := if a = "name".toList then da.name.map AVal.str else da.attr a

/-- the `loc` argument of `match_attr`: `None` or `"any"`; `False`, `""` or `[]`; a string; a list -/
inductive MLoc
  | any
  | no
  | str (s : Str)
  | list (l : List Str)
  deriving DecidableEq, Repr

inductive MErr
  | typeError
  | attributeError
  | unknownName   -- XoaCFError of `_assert_known_`
  | multiple      -- XoaCFError "Multiple items found..."
  | notFound      -- XoaCFError "No match item found"
  | valueError    -- truth value of an array
  deriving DecidableEq, Repr

/-- `SGLocator.match_attr(attr, value, root, loc)`, xoa/cf.py:244-272. With a string `loc`, line 272 is
the substring test `vloc in loc`, which is a `TypeError` when `vloc` is `None`. -/
def matchAttrLoc (sg : SG) (a : SGAttr) (value root : Str) (loc : MLoc) : Except MErr Bool :=
  let r := parseAttr sg a (lower value)
  if lower r.1 ≠ lower root then .ok false
  else match loc with
    | .any => .ok true
    | .no => .ok r.2.isNone
    | .str s => match r.2 with
      | none => .error .typeError
      | some l => .ok (decide (l <:+: s))
    | .list ls => match r.2 with
      | none => .ok false
      | some l => .ok (decide (l ∈ ls))

/-- `match_string(value, ref, ignorecase=True)` with a string `ref`, xoa/misc.py:614-665 -/
def matchStringV (v : AVal) (ref : Str) : Except MErr Bool :=
  match v with
  | .str s => .ok (if ref = [] then false else matchString true none s [.str ref])
  | .other t => if t = false ∨ ref = [] then .ok false else .error .attributeError

/-- one reference, xoa/cf.py:1617-1622: `(attr in valid_attrs and match_attr(...)) or match_string(...)`.
A value that is not a string has no method `lower`. -/
def matchRef (sg : SG) (loc : MLoc) (attr : Str) (v : AVal) (ref : Str) : Except MErr Bool :=
  match sgAttrOf attr with
  | none => matchStringV v ref
  | some a => match v with
    | .other _ => .error .attributeError
    | .str s => (matchAttrLoc sg a s ref loc).bind fun b => if b then .ok true else matchStringV v ref

/-- the references of a criterion: a list of strings, a string (`axis`), or `None` -/
inductive Refs
  | list (l : List Str)
  | text (s : Str)
  | none_
  deriving DecidableEq, Repr

/-- the loop on the references, xoa/cf.py:1616-1623; `true` is the early return -/
def matchRefs (sg : SG) (loc : MLoc) (attr : Str) (v : AVal) : List Str → Except MErr Bool
  | [] => .ok false
  | ref :: refs => (matchRef sg loc attr v ref).bind fun b => if b then .ok true else matchRefs sg loc attr v refs

/-- `for ref in refs`: iteration on a string gives its characters, on `None` a `TypeError` -/
def iterRefs : Refs → Except MErr (List Str)
  | .list l => .ok l
  | .text s => .ok (s.map fun c => [c])
  | .none_ => .error .typeError

/-- one criterion, xoa/cf.py:1612-1623 -/
def matchCrit (sg : SG) (loc : MLoc) (da : DObj) (c : Str × Refs) : Except MErr Bool :=
  match da.get c.1 with
  | none => .ok false
  | some v => (iterRefs c.2).bind (matchRefs sg loc c.1 v)

/-- the loop on the criteria, xoa/cf.py:1612-1623 -/
def matchCrits (sg : SG) (loc : MLoc) (da : DObj) : List (Str × Refs) → Except MErr Bool
  | [] => .ok false
  | c :: cs => (matchCrit sg loc da c).bind fun b => if b then .ok true else matchCrits sg loc da cs

/-- the specifications of an item: its alternative names, its attributes and its search order -/
structure CfSpec where
  names : List Str
  attrs : List (Str × Refs)
  searchOrder : Str

/-- the tuple of xoa/cf.py:1561-1567 -/
def matchable : List Str := ["name".toList, "standard_name".toList, "long_name".toList, "axis".toList, "units".toList]

/-- the body of the loop on the attributes of `_get_ordered_match_specs_`, xoa/cf.py:1561-1573. The key
`name` is always present in validated specifications (xoa/cf.ini:16 and 47). -/
def orderedStep (name : Str) (spec : CfSpec) (sm : Char) (ms : List (Str × Refs)) (attr : Str) : List (Str × Refs) :=
  if attr.head? ≠ some sm then ms
  else if attr = "name".toList then setS "name".toList (.list (name :: spec.names)) ms
  else match lookupS attr spec.attrs with
    | some r => setS attr r ms
    | none => ms

/-- `_get_ordered_match_specs_`, xoa/cf.py:1557-1574 -/
def orderedCrits (name : Str) (spec : CfSpec) : List (Str × Refs) :=
  spec.searchOrder.foldl (fun ms sm => matchable.foldl (orderedStep name spec sm) ms) []

/-- the specifications of a category -/
abbrev CfCat := List (Str × CfSpec)

/-- `match(da, name)` with an explicit name, xoa/cf.py:1576-1624 -/
def matchName (sg : SG) (cat : CfCat) (loc : MLoc) (da : DObj) (name : Str) : Except MErr Bool :=
  match lookupS name cat with
  | none => .error .unknownName
  | some spec => matchCrits sg loc da (orderedCrits name spec)

/-- the loop on the names of `match(da)` without name, xoa/cf.py:1603-1624 -/
def matchAnyIn (sg : SG) (loc : MLoc) (da : DObj) : CfCat → Except MErr (Option Str)
  | [] => .ok none
  | (n, spec) :: rest => (matchCrits sg loc da (orderedCrits n spec)).bind fun b =>
      if b then .ok (some n) else matchAnyIn sg loc da rest

/-- `match(da)`, xoa/cf.py:1576-1624 -/
def matchAny (sg : SG) (cat : CfCat) (loc : MLoc) (da : DObj) : Except MErr (Option Str) := matchAnyIn sg loc da cat

/-- the variables of the loops of `search`: `found` (as with `get="both"`), `found_objs` and `name` -/
structure SearchSt where
  found : List (DObj × Str)
  seen : List (Option Str)
  name : Option Str

/-- the body of the inner loop of `search`, xoa/cf.py:1677-1686. `test` is `self.match(obj, match_arg)`,
whose true result is the name that is then used when `name` is not set. -/
def searchObj (test : DObj → Except MErr (Option Str)) (st : SearchSt) (obj : DObj) : Except MErr SearchSt :=
  (test obj).bind fun m => m.elim (.ok st) fun m =>
    if obj.name ∈ st.seen then .ok st
    else
      let label := st.name.getD m
      .ok ⟨st.found ++ [(obj, label)], st.seen ++ [obj.name], some label⟩

/-- the loop on the objects, xoa/cf.py:1676-1686 -/
def searchObjs (test : DObj → Except MErr (Option Str)) : List DObj → SearchSt → Except MErr SearchSt
  | [], st => .ok st
  | o :: os, st => (searchObj test st o).bind (searchObjs test os)

/-- the loop on the match specifications, xoa/cf.py:1675-1686 -/
def searchLoop (objs : List DObj) : List (DObj → Except MErr (Option Str)) → SearchSt → Except MErr SearchSt
  | [], st => .ok st
  | t :: ts, st => (searchObjs t objs st).bind (searchLoop objs ts)

/-- `self.match(obj, {attr: refs})`: `True` stands for the requested name -/
def critTest (sg : SG) (loc : MLoc) (name : Str) (c : Str × Refs) (o : DObj) : Except MErr (Option Str) :=
  (matchCrits sg loc o [c]).map fun b => if b then some name else none

/-- `search(dsa, name, single=False)` with an explicit known name, xoa/cf.py:1659-1690 -/
def searchNameAll (sg : SG) (loc : MLoc) (objs : List DObj) (name : Str) (spec : CfSpec) : Except MErr (List (DObj × Str)) :=
  (searchLoop objs ((orderedCrits name spec).map (critTest sg loc name)) ⟨[], [], some name⟩).map SearchSt.found

/-- `search(dsa, single=False)` without name, xoa/cf.py:1659-1690 -/
def searchAnyAll (sg : SG) (cat : CfCat) (loc : MLoc) (objs : List DObj) : Except MErr (List (DObj × Str)) :=
  (searchLoop objs [matchAny sg cat loc] ⟨[], [], none⟩).map SearchSt.found

/-- the `errors` argument -/
inductive EMode
  | ignore
  | warn
  | raise
  deriving DecidableEq, Repr

/-- the end of `search` with `single=True`, xoa/cf.py:1691-1703: the item and the number of warnings -/
def searchEnd (errors : EMode) (found : List (DObj × Str)) : Except MErr (Option (DObj × Str) × Nat) :=
  if errors = .raise ∧ found.length > 1 then .error .multiple
  else
    let w := if errors = .warn ∧ found.length > 1 then 1 else 0
    match found with
    | f :: _ => .ok (some f, w)
    | [] => if errors = .raise then .error .notFound else .ok (none, w + if errors = .warn then 1 else 0)

/-- `search(dsa, name, single=True, errors)`, xoa/cf.py:1627-1703; an unknown name raises only with
`errors="raise"` (xoa/cf.py:1660-1663) -/
def searchName (sg : SG) (cat : CfCat) (loc : MLoc) (objs : List DObj) (name : Str) (errors : EMode) :
    Except MErr (Option (DObj × Str) × Nat) :=
  match lookupS name cat with
  | none => if errors = .raise then .error .unknownName else .ok (none, 0)
  | some spec => (searchNameAll sg loc objs name spec).bind (searchEnd errors)

/-- `search(dsa, single=True, errors)` without name, xoa/cf.py:1627-1703 -/
def searchAny (sg : SG) (cat : CfCat) (loc : MLoc) (objs : List DObj) (errors : EMode) : Except MErr (Option (DObj × Str) × Nat) :=
  (searchAnyAll sg cat loc objs).bind (searchEnd errors)

/-- `get(dsa, name)`, xoa/cf.py:1705-1707 -/
def cfGet (sg : SG) (cat : CfCat) (objs : List DObj) (name : Str) : Except MErr (Option (DObj × Str) × Nat) :=
  searchName sg cat .any objs name .ignore

end Xoa
