import Verif.Misc

/-!
# Model of SGLocator (xoa/cf.py:79-554)

Simplifications: a name format is `prefix{root}separator{loc}suffix` (root before location) and
its fixed parts, as well as the valid locations, are literal text without characters that are
special in regular expressions; character classes and case are the ASCII ones (see Str.lean).
-/

namespace Xoa

/-- the attributes that carry a location, `SGLocator.valid_attrs`, xoa/cf.py:103 -/
inductive SGAttr
  | name | standardName | longName
  deriving DecidableEq, Repr

/-- the fixed parts of a format -/
structure SGFormat where
  pre : Str := []
  sep : Str
  post : Str := []
  deriving DecidableEq, Repr

/-- a locator: its name format and its valid locations (`[]` when there is none) -/
structure SG where
  nameFormat : SGFormat := { sep := "_".toList }
  valid : List Str := []
  deriving DecidableEq, Repr

/-- `SGLocator.formats`, xoa/cf.py:105-109 and 142 -/
def SG.format (sg : SG) : SGAttr → SGFormat
  | .name => sg.nameFormat
  | .standardName => { sep := "_at_".toList, post := "_location".toList }
  | .longName => { sep := " at ".toList, post := " location".toList }

/-- `SGLocator.root_patterns`, xoa/cf.py:111-115 -/
def rootClass : SGAttr → Char → Bool
  | .longName, c => isWord c || c = ' '
  | _, c => isWord c

/-- literal text at the beginning of a string, ignoring case (`re.I`) -/
def litMatch (lit s : Str) : Bool := lower (s.take lit.length) == lower lit

/-- length of the longest prefix in a character class -/
def spanLen (p : Char → Bool) (s : Str) : Nat := (s.takeWhile p).length

/-- the lengths tried by a greedy `+`: `n, n-1, ..., 1` -/
def desc (n : Nat) : List Nat := (List.range n).reverse.map (· + 1)

/-- the location group and the end of the regular expression: greedy `[a-z]+`, or the
alternation of the valid locations in their order, xoa/cf.py:117, 144-147 -/
def tryLoc (valid : List Str) (post rest : Str) : Option Str :=
  if valid = [] then
    (desc (spanLen Char.isAlpha rest)).findSome? (fun m =>
      if litMatch post (rest.drop m) then some (rest.take m) else none)
  else
    valid.findSome? (fun l =>
      if litMatch l rest && litMatch post (rest.drop l.length) then some (rest.take l.length) else none)

/-- the expression once the root has taken `n` characters -/
def tryRoot (f : SGFormat) (valid : List Str) (s : Str) (n : Nat) : Option (Str × Str) :=
  if litMatch f.sep (s.drop n) then
    (tryLoc valid f.post (s.drop (n + f.sep.length))).map (fun loc => (s.take n, loc))
  else none

/-- `self.re_match[attr](value)`: match at the beginning of the value, with backtracking,
xoa/cf.py:79-90 -/
def parseRe (sg : SG) (attr : SGAttr) (value : Str) : Option (Str × Str) :=
  let f := sg.format attr
  if litMatch f.pre value then
    let s := value.drop f.pre.length
    (desc (spanLen (rootClass attr) s)).findSome? (tryRoot f sg.valid s)
  else none

/-- `SGLocator.parse_attr`, xoa/cf.py:153-188 -/
def parseAttr (sg : SG) (attr : SGAttr) (value : Str) : Str × Option Str :=
  match parseRe sg attr value with
  | none => (value, none)
  | some (root, loc) => (root, some (lower loc))

/-- a data array as seen by `get_location`: name and attributes -/
structure DaAttrs where
  name : Option Str := none
  standardName : Option Str := none
  longName : Option Str := none

/-- a location that is true in a boolean context -/
def truthyLoc (l : Option Str) : Bool :=
  match l with
  | none => false
  | some s => !s.isEmpty

/-- taking one more location into account, xoa/cf.py:218-228 and 231-240; `none` is `XoaCFError` -/
def nextLoc (loc x : Option Str) : Option (Option Str) :=
  if truthyLoc x then
    if truthyLoc loc && x != loc then none else some x
  else some loc

/-- the location of an attribute that may be missing -/
def locOf (sg : SG) (attr : SGAttr) (value : Option Str) : Option Str :=
  value.bind (fun v => (parseAttr sg attr v).2)

/-- `SGLocator.get_location`, xoa/cf.py:190-242; `none` is `XoaCFError`. A missing attribute is
skipped, as one without location; an empty name too (`if da.name`, :213). -/
def getLocation (sg : SG) (da : DaAttrs) : Option (Option Str) :=
  let loc := if da.name = some [] then none else locOf sg .name da.name
  match nextLoc loc (locOf sg .standardName da.standardName) with
  | none => none
  | some loc => nextLoc loc (locOf sg .longName da.longName)

/-- the `loc` argument of the formatting methods: `None`, `True`, a non empty string, or
`False` and `""` -/
inductive LocArg
  | keep
  | true_
  | str (s : Str)
  | no
  deriving DecidableEq, Repr

instance exceptDecEq {ε α : Type} [DecidableEq ε] [DecidableEq α] : DecidableEq (Except ε α)
  | .ok a, .ok b => if h : a = b then isTrue (by rw [h]) else isFalse (fun e => h (by injection e))
  | .error a, .error b => if h : a = b then isTrue (by rw [h]) else isFalse (fun e => h (by injection e))
  | .ok _, .error _ => isFalse (fun e => by injection e)
  | .error _, .ok _ => isFalse (fun e => by injection e)

inductive SGErr
  | invalidLocation      -- XoaCFError
  | attributeError       -- True.lower()
  deriving DecidableEq, Repr

/-- `str.capitalize` -/
def capitalize : Str → Str
  | [] => []
  | c :: s => c.toUpper :: lower s

/-- `str.replace` of one character -/
def replaceC (a b : Char) (s : Str) : Str := s.map (fun c => if c = a then b else c)

/-- standardisation of the root, xoa/cf.py:309-315 -/
def stdRoot (attr : SGAttr) (root : Str) : Str :=
  match attr with
  | .longName => replaceC '_' ' ' (capitalize root)
  | .name => replaceC ' ' '_' root
  | .standardName => lower (replaceC ' ' '_' root)

/-- standardisation of the location, xoa/cf.py:334-338 -/
def stdLoc (attr : SGAttr) (loc : Str) : Str :=
  match attr with
  | .longName => upper loc
  | .name => loc
  | .standardName => lower loc

/-- `self.formats[attr].format(root=root, loc=loc)` -/
def fmt (f : SGFormat) (root loc : Str) : Str := f.pre ++ root ++ f.sep ++ loc ++ f.post

/-- `SGLocator.format_attr(attr, value, loc, standardize)`, xoa/cf.py:274-339, for a string
value and one of the three attributes -/
def formatAttr (sg : SG) (attr : SGAttr) (value : Str) (loc : LocArg) (standardize : Bool := true) : Except SGErr Str :=
  let pr := parseAttr sg attr value
  let root := if standardize then stdRoot attr pr.1 else pr.1
  let ploc := pr.2
  let finish (loc : Option Str) : Str :=
    match loc with
    | none => root
    | some l => if l = [] then root else fmt (sg.format attr) root (if standardize then stdLoc attr l else l)
  match loc with
  | .true_ => if sg.valid ≠ [] then .error .attributeError else .ok (finish ploc)
  | .keep => .ok (finish ploc)
  | .no => .ok root
  | .str s =>
    if s = [] then .ok root
    else if sg.valid ≠ [] ∧ lower s ∉ sg.valid then .error .invalidLocation
    else .ok (finish (some s))

/-- `SGLocator.match_attr(attr, value, root, loc)` with `loc` `None` or `"any"`, xoa/cf.py:244-272 -/
def matchAttrAny (sg : SG) (attr : SGAttr) (value root : Str) : Bool :=
  lower (parseAttr sg attr (lower value)).1 == lower root

/-- `SGLocator.merge_attr(attr, value0, value1, loc, standardize)`, xoa/cf.py:384-430. The `loc`
argument `"any"` is the string of this value. -/
def mergeAttr (sg : SG) (attr : SGAttr) (value0 value1 : Option Str) (loc : LocArg) (standardize : Bool := true) :
    Except SGErr (Option Str) :=
  match value0, value1 with
  | none, none => .ok none
  | none, some v1 => (formatAttr sg attr v1 loc standardize).map some
  | some v0, none => (formatAttr sg attr v0 loc standardize).map some
  | some v0, some v1 =>
    let loc' : LocArg :=
      if loc = .keep ∨ loc = .str "any".toList then
        match (parseAttr sg attr v1).2 with
        | some l => .str l
        | none => match (parseAttr sg attr v0).2 with
          | some l => .str l
          | none => loc
      else loc
    (formatAttr sg attr v1 loc' standardize).map some

/-- an attribute value: a string, a list of strings or something else -/
inductive AttrVal
  | str (s : Str)
  | list (l : List Str)
  | other (n : Int)
  deriving DecidableEq, Repr

/-- the located attribute of this name -/
def sgAttrOf (k : Str) : Option SGAttr :=
  if k = "name".toList then some .name
  else if k = "standard_name".toList then some .standardName
  else if k = "long_name".toList then some .longName
  else none

/-- one item of `SGLocator.format_attrs`, xoa/cf.py:370-379 -/
def formatItem (sg : SG) (loc : LocArg) (standardize : Bool) (k : Str) (v : AttrVal) : Except SGErr AttrVal :=
  match sgAttrOf k, v with
  | some .name, v => .ok v
  | none, v => .ok v
  | some a, .str s => (formatAttr sg a s loc standardize).map AttrVal.str
  | some a, .list l => (l.mapM (fun s => formatAttr sg a s loc standardize)).map AttrVal.list
  | some _, .other n => .ok (.other n)   -- not a string: regex TypeError in python, not modelled

/-- `SGLocator.format_attrs`, xoa/cf.py:341-382 -/
def formatAttrs (sg : SG) (loc : LocArg) (standardize : Bool) : List (Str × AttrVal) → Except SGErr (List (Str × AttrVal))
  | [] => .ok []
  | (k, v) :: rest => do
    let v' ← formatItem sg loc standardize k v
    let rest' ← formatAttrs sg loc standardize rest
    return (k, v') :: rest'

/-- the value chosen for a located attribute of the patch, xoa/cf.py:478-496 (a list: the
current value if it is compatible with one of the list, else the first of the list). `none`:
a case that raises in python (empty list, current value that is not a string). -/
def patchChoice (sg : SG) (a : SGAttr) (cur : Option AttrVal) (v : AttrVal) : Option (Option Str × Str) :=
  match cur, v with
  | none, .str s => some (none, s)
  | some (.str c), .str s => some (some c, s)
  | none, .list (s :: _) => some (none, s)
  | some (.str c), .list (s :: l) =>
    if (s :: l).any (fun x => matchAttrAny sg a c x) then some (some c, c) else some (some c, s)
  | _, _ => none

/-- one item of the patch, xoa/cf.py:470-502 (items of value `None` are not in the patch) -/
def patchItem (sg : SG) (loc : LocArg) (standardize replace : Bool) (attrs : List (Str × AttrVal)) (k : Str) (v : AttrVal) :
    Option (List (Str × AttrVal)) :=
  if (lookupS k attrs).isSome && !replace then some attrs
  else match sgAttrOf k with
    | none => some (setS k v attrs)
    | some a => match patchChoice sg a (lookupS k attrs) v with
      | none => none
      | some (v0, v1) => match mergeAttr sg a v0 (some v1) loc standardize with
        | .ok (some s) => some (setS k (.str s) attrs)
        | .ok none => some attrs
        | .error _ => none

/-- `SGLocator.patch_attrs`, xoa/cf.py:432-497; `none` is an exception -/
def patchAttrs (sg : SG) (attrs patch : List (Str × AttrVal)) (loc : LocArg) (standardize replace : Bool) :
    Option (List (Str × AttrVal)) :=
  match formatAttrs sg loc standardize attrs with
  | .error _ => none
  | .ok attrs => patch.foldlM (fun at_ p => patchItem sg loc standardize replace at_ p.1 p.2) attrs

end Xoa
