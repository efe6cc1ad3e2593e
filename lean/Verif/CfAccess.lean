import Verif.CfDims

/-!
# Access to the specifications by name, and searches of several items (xoa/cf.py:711-720, 1350-1402, 1480-1539)
-/

namespace Xoa

/-! ## `CFSpecs` and its categories as containers -/

/-- the specifications seen as a container: the sections of its dictionary that are not categories, and the two categories -/
structure CfBox (α : Type) where
  dataVars : List (Str × α)
  coords : List (Str × α)
  others : List (Str × α)

/-- what an access gives: a category itself, the specifications of an item, or another section -/
inductive CfItem (α : Type)
  | category (vars : Bool)
  | item (vars : Bool) (specs : α)
  | section (specs : α)
  deriving DecidableEq, Repr

/-- `categories`, xoa/cf.py:698-701 -/
def catNames : List Str := [cVars, cCoords]

/-- the error of an access -/
inductive AccessErr
  | keyError
  | xoaError
  deriving DecidableEq, Repr

/-- `specs[section]`, xoa/cf.py:711-717 -/
def CfBox.getItem {α : Type} (b : CfBox α) (s : Str) : Except AccessErr (CfItem α) :=
  if s ∈ catNames then .ok (.category (decide (s = cVars)))
  else match lookupS s b.dataVars with
    | some v => .ok (.item true v)
    | none => match lookupS s b.coords with
      | some v => .ok (.item false v)
      | none => match lookupS s b.others with
        | some v => .ok (.section v)
        | none => .error .keyError

/-- `name in specs`, xoa/cf.py:719-720 -/
def CfBox.contains {α : Type} (_b : CfBox α) (s : Str) : Bool := decide (s ∈ catNames)

/-- `specs.<category>.get_specs(name, errors)`, xoa/cf.py:1520-1539: the specifications and the number of warnings;
`specs.<category>[name]` is the same with `errors="warn"` (1483-1484) -/
def getSpecs {α : Type} (cat : List (Str × α)) (name : Str) (errors : EMode) : Except AccessErr (Option α × Nat) :=
  match lookupS name cat with
  | some v => .ok (some v, 0)
  | none => match errors with
    | .raise => .error .xoaError
    | .warn => .ok (none, 1)
    | .ignore => .ok (none, 0)

/-- `name in specs.<category>`, xoa/cf.py:1492-1493 -/
def catContains {α : Type} (cat : List (Str × α)) (name : Str) : Bool := (lookupS name cat).isSome

/-! ## Search of several items in the two categories -/

/-- the argument `categories` of `CFSpecs.search` -/
inductive CatsArg
  | none
  | one (vars : Bool)
  | list (l : List Bool)
  deriving DecidableEq, Repr

/-- the categories that are used, xoa/cf.py:1368-1374, where `self.categories` is `["data_vars", "coords"]`: an explicit list that is not empty
is replaced by all the categories -/
def CatsArg.used (dsa : DSA) : CatsArg → List Bool
  | .none => dsa.cats
  | .list [] => dsa.cats
  | .one v => [v]
  | .list (_ :: _) => [true, false]

/-- `self[category].search(dsa, name, loc, single=False, errors="ignore")`, xoa/cf.py:1627-1690: `None` when the name is not in the category (1660-1663) -/
def catSearchAll (sg : SG) (cat : CfCat) (loc : MLoc) (objs : List DObj) (name : Option Str) : Except MErr (Option (List (DObj × Str))) :=
  match name with
  | none => (searchAnyAll sg cat loc objs).map some
  | some n => match lookupS n cat with
    | none => .ok none
    | some spec => (searchNameAll sg loc objs n spec).map some

/-- `r not in found`, where `eq` is the comparison of two found items: it may raise -/
def notIn {β : Type} (eq : β → β → Except MErr Bool) (r : β) : List β → Except MErr Bool
  | [] => .ok true
  | x :: l => (eq x r).bind fun b => if b then .ok false else notIn eq r l

/-- `[r for r in res if r not in found]`, xoa/cf.py:1382 -/
def newOnes {β : Type} (eq : β → β → Except MErr Bool) (found : List β) : List β → Except MErr (List β)
  | [] => .ok []
  | r :: l => (notIn eq r found).bind fun b => (newOnes eq found l).map fun l' => if b then r :: l' else l'

/-- the new items of a category, xoa/cf.py:1382-1383: iterating on `None` is a `TypeError` -/
def addFound {β : Type} (eq : β → β → Except MErr Bool) (get : DObj × Str → β) (found : List β) : Option (List (DObj × Str)) → Except MErr (List β)
  | none => .error .typeError
  | some res => (newOnes eq found (res.map get)).map fun l => found ++ l

/-- the loop of `CFSpecs.search` with `single=False`, xoa/cf.py:1378-1383 -/
def searchAllLoop {β : Type} (sg : SG) (two : CfTwo) (dsa : DSA) (loc : MLoc) (name : Option Str) (eq : β → β → Except MErr Bool) (get : DObj × Str → β) :
    List β → List Bool → Except MErr (List β)
  | found, [] => .ok found
  | found, v :: vs => (catSearchAll sg (two.cat v) loc (dsa.objs v) name).bind fun res =>
      (addFound eq get found res).bind fun f => searchAllLoop sg two dsa loc name eq get f vs

/-- `CFSpecs.search(dsa, name, loc, get, single=False, categories)`, xoa/cf.py:1350-1387: `get` gives the object, the name, or both,
and `eq` is `==` on these followed by `bool` -/
def specsSearchAll {β : Type} (sg : SG) (two : CfTwo) (dsa : DSA) (loc : MLoc) (name : Option Str) (cats : CatsArg) (eq : β → β → Except MErr Bool)
    (get : DObj × Str → β) : Except MErr (List β) :=
  searchAllLoop sg two dsa loc name eq get [] (cats.used dsa)

/-- `CFSpecs.search(dsa, name, loc, single=True, categories, errors="ignore")`, xoa/cf.py:1350-1392 -/
def specsSearchIn (sg : SG) (two : CfTwo) (dsa : DSA) (loc : MLoc) (name : Str) (cats : CatsArg) : Except MErr (Option (DObj × Str)) :=
  specsLoop sg two dsa loc name (cats.used dsa)

/-- comparison of names, for `get="name"` -/
def eqName (a b : Str) : Except MErr Bool := .ok (decide (a = b))

/-- `==` on two arrays and its truth value: an array of more than one value has no truth value, `bool` raises a `ValueError`; `size` is the number of values of the comparison -/
def eqObj (size : DObj → DObj → Nat) (same : DObj → DObj → Bool) (a b : DObj) : Except MErr Bool :=
  if size a b = 1 then .ok (same a b) else .error .valueError

end Xoa
