import Verif.CfMatch

/-!
# Explicit specifications in place of a name (xoa/cf.py:1576-1703)

`match` and `search` document that the name can be a dictionary of explicit specifications. Its keys are attributes and its values
are lists of references (or any other value that `Refs` covers).
-/

namespace Xoa

/-- the argument `name`: `None` (or an empty text), a name, or a dictionary -/
inductive NameArg
  | none_
  | name (n : Str)
  | specs (cs : List (Str × Refs))

/-- what `match` gives: a boolean, or a name or `None` -/
inductive MatchOut
  | bool (b : Bool)
  | found (n : Option Str)
  deriving DecidableEq, Repr

/-- `match(da, name, loc)`, xoa/cf.py:1597-1624: an empty dictionary is false, as no name at all -/
def matchArg (sg : SG) (cat : CfCat) (loc : MLoc) (da : DObj) : NameArg → Except MErr MatchOut
  | .none_ => (matchAny sg cat loc da).map .found
  | .name n => (matchName sg cat loc da n).map .bool
  | .specs [] => (matchAny sg cat loc da).map .found
  | .specs (c :: cs) => (matchCrits sg loc da (c :: cs)).map .bool

/-- `search(dsa, name, loc, single=False)`, xoa/cf.py:1659-1690. With a dictionary, `_get_ordered_match_specs_` (1557-1558) asks whether
it is a key of the specifications (1533): a `TypeError`, as dictionaries cannot be hashed. -/
def searchArgAll (sg : SG) (cat : CfCat) (loc : MLoc) (objs : List DObj) : NameArg → Except MErr (Option (List (DObj × Str)))
  | .none_ => (searchAnyAll sg cat loc objs).map some
  | .name n => match lookupS n cat with
    | none => .ok none  -- with an `errors` other than "raise"
    | some spec => (searchNameAll sg loc objs n spec).map some
  | .specs [] => (searchAnyAll sg cat loc objs).map some
  | .specs (_ :: _) => .error .typeError

end Xoa
