import Verif.CfgLoad
import Verif.Validators

/-!
# Model of the initialisation of `ConfigManager`: `ConfigManager.__init__` (xoa/cfgm.py)

The specification of an option is a text like `boolean`, `integer(min=0, default=3)`. It is read by `Validator._parse_with_caching` of the
package `configobj`; texts with quotes and with parameters `name=list(...)` are not modelled.
-/

namespace Xoa

/-- what `Validator._parse_with_caching(check)` gives, as used in xoa/cfgm.py:1690 and xoa/cfgm.py:1935-1937 -/
structure ParsedCheck where
  name : Str
  args : List Str
  kwargs : List (Str × Str)
  dflt : Option Str
  deriving DecidableEq

/-- not an opening parenthesis -/
def notOpen (c : Char) : Bool := c != '('
/-- not a closing parenthesis -/
def notClose (c : Char) : Bool := c != ')'
/-- not an equal sign -/
def notEqual (c : Char) : Bool := c != '='

/-- the text before the last closing parenthesis -/
def beforeClose (s : Str) : Option Str :=
  match s.reverse.dropWhile notClose with
  | [] => none
  | _ :: r => some r.reverse

/-- the parameters, from the opening parenthesis -/
def funcBody (n : Str) : Str → Option (Str × Str)
  | [] => none
  | _ :: body => (beforeClose body).map (fun g => (n, g))

/-- the expression `(.+?)\((.*)\)`: the name of the function, and the text of its parameters -/
def funcMatch : Str → Option (Str × Str)
  | [] => none
  | c :: s => funcBody (c :: s.takeWhile notOpen) (s.dropWhile notOpen)

/-- a parameter: positional, or a keyword -/
inductive ChkParam
  | pos (v : Str)
  | kw (k v : Str)
  deriving DecidableEq

/-- the longest identifier at the end of a text -/
def identSuffix (s : Str) : Str := ((s.reverse.takeWhile isWord).reverse).dropWhile Char.isDigit

/-- the text around the last sign `=` -/
def eqParts (p : Str) : Option (Str × Str) :=
  match p.reverse.dropWhile notEqual with
  | [] => none
  | _ :: l => some (l.reverse, (p.reverse.takeWhile notEqual).reverse)

/-- the parameter found between two commas, if any -/
def paramOf (piece : Str) : Option ChkParam :=
  match eqParts (strip piece) with
  | none => if strip piece = [] then none else some (.pos (strip piece))
  | some (l, r) =>
    if strip r = [] then none
    else if identSuffix (rstrip l) = [] then some (.pos (strip r))
    else some (.kw (identSuffix (rstrip l)) (strip r))

/-- the parameters of a check -/
def paramsOf (s : Str) : List ChkParam := (splitComma [] s).filterMap paramOf

def posOf : ChkParam → Option Str
  | .pos v => some v
  | .kw _ _ => none

def kwOf : ChkParam → Option (Str × Str)
  | .pos _ => none
  | .kw k v => some (k, v)

/-- `Validator._parse_check` (package configobj), used in xoa/cfgm.py:1690 and xoa/cfgm.py:1935-1937 -/
def parseCheck (check : Str) : ParsedCheck :=
  match funcMatch check with
  | none => ⟨check, [], [], none⟩
  | some (n, g) =>
    let kws := updateS [] ((paramsOf g).filterMap kwOf)
    ⟨n, (paramsOf g).filterMap posOf, kws.filter (fun p => decide (p.1 ≠ "default".toList)), lookupS "default".toList kws⟩

/-- `_walker_set_boolean_false_by_default_`, xoa/cfgm.py:1931-1943 -/
def setBoolFalse (check : Str) : Str :=
  let p := parseCheck check
  if p.name = "boolean".toList ∧ p.dflt = none then
    (if p.args ≠ [] ∨ p.kwargs ≠ [] then check.dropLast ++ ", default=False)".toList else check ++ "(default=False)".toList)
  else check

mutual
/-- `ConfigObj.walk` with a function that replaces the values -/
def walkT {V W : Type} (f : V → W) : CT V → CT W
  | .val v => .val (f v)
  | .sec l => .sec (walkL f l)
def walkL {V W : Type} (f : V → W) : List (Str × CT V) → List (Str × CT W)
  | [] => []
  | (k, t) :: rest => (k, walkT f t) :: walkL f rest
end

/-- the argument `cfgspecfile`: the specifications of a file (or of a dictionary), or a `ConfigObj` -/
inductive SpecsArg
  | file (t : List (Str × CT Str))
  | obj (t : List (Str × CT Str))

def SpecsArg.tree : SpecsArg → List (Str × CT Str)
  | .file t => t
  | .obj t => t

/-- the filter of the specifications, xoa/cfgm.py:774-781 -/
def filterSpecs (flt : Option Filt) (fdflt : Bool) (t : List (Str × CT Str)) : List (Str × CT Str) :=
  match flt with
  | none => t
  | some f => filterSec f.d f.e f.items fdflt t

/-- the specifications of the manager, `ConfigManager(cfgspecfile, boolean_false, cfgfilter, cfgfilter_default)`, xoa/cfgm.py:762-803 -/
def initSpecs (boolFalse : Bool) (flt : Option Filt) (fdflt : Bool) (arg : SpecsArg) : List (Str × CT Str) :=
  if boolFalse then walkL setBoolFalse (filterSpecs flt fdflt arg.tree) else filterSpecs flt fdflt arg.tree

/-- the object given as `cfgspecfile`, after the initialisation: a `ConfigObj` is the specifications of the manager, xoa/cfgm.py:763-764 -/
def initGiven (boolFalse : Bool) (flt : Option Filt) (fdflt : Bool) : SpecsArg → SpecsArg
  | .file t => .file t
  | .obj t => .obj (initSpecs boolFalse flt fdflt (.obj t))

end Xoa
