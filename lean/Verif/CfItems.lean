import Verif.CfMatch

/-!
# Access to CF specifications: items of `CFSpecs`, `get_cf_specs(name, category)` and `get_axis` (xoa/cf.py:710-725, 1438-1440, 1520-1545, 1945-1975, 2437-2453)
-/

namespace Xoa

/-- the specifications: the two categories, and the names of the sections of the dictionary -/
structure Specs where
  vars : CfCat
  coords : CfCat
  sections : List Str

/-- what `specs[key]` can be -/
inductive SpecItem
  | category (c : CfCat)   -- `CFVarSpecs` or `CFCoordSpecs`
  | item (s : CfSpec)      -- the specifications of a variable or of a coordinate
  | sect (n : Str)         -- another section, as `dims` or `sglocator`

inductive KeyErr | keyError
  deriving DecidableEq, Repr

/-- `CFSpecs.__getitem__`, xoa/cf.py:712-718 -/
def Specs.get (sp : Specs) (key : Str) : Except KeyErr SpecItem :=
  if key = "data_vars".toList then .ok (.category sp.vars)
  else if key = "coords".toList then .ok (.category sp.coords)
  else match lookupS key sp.vars with
    | some s => .ok (.item s)
    | none => match lookupS key sp.coords with
      | some s => .ok (.item s)
      | none => if key ∈ sp.sections then .ok (.sect key) else .error .keyError

/-- `CFSpecs.__contains__`, xoa/cf.py:720-721 -/
def Specs.contains (key : Str) : Bool := key = "data_vars".toList || key = "coords".toList

/-- what `get_cf_specs` gives: all the specifications, a category or another part, the specifications of an item, `None`, or what is found inside the specifications of
an item or inside a section that are given as category (no more detail) -/
inductive SpecsOut
  | all
  | part (i : SpecItem)
  | specs (s : CfSpec)
  | none_
  | inside

/-- the end of `get_cf_specs(name, category)`, xoa/cf.py:2436-2453 -/
def selectSpecs (sp : Specs) (name category : Option Str) : Except KeyErr SpecsOut :=
  match category with
  | some c => (sp.get c).map fun i =>
      match name with
      | none => .part i
      | some n => match i with
        | .category cat => match lookupS n cat with
          | some s => .specs s
          | none => .none_
        | _ => .inside
  | none => match name with
    | none => .ok .all
    | some n => match lookupS n sp.vars with
      | some s => .ok (.specs s)
      | none => match lookupS n sp.coords with
        | some s => .ok (.specs s)
        | none => .ok .none_

inductive AxErr
  | matching (e : MErr)
  | attributeError   -- not a text
  | keyError
  deriving DecidableEq, Repr

/-- `get_axis(coord, lower)`, xoa/cf.py:1965-1975, with the specifications of the coordinates -/
def getAxis (sg : SG) (cat : CfCat) (low : Bool) (da : DObj) : Except AxErr (Option Str) :=
  let case (s : Str) : Str := if low then lower s else upper s
  match da.get "axis".toList with
  | some (.str a) => .ok (some (case a))
  | some (.other _) => .error .attributeError
  | none => match matchAny sg cat .any da with
    | .error e => .error (.matching e)
    | .ok none => .ok none
    | .ok (some n) => match lookupS n cat with
      | none => .error .keyError
      | some spec => match lookupS "axis".toList spec.attrs with
        | none => .error .keyError
        | some .none_ => .ok none
        | some (.text a) => .ok (some (case a))
        | some (.list _) => .error .attributeError

end Xoa
