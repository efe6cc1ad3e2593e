import Verif.Misc
import Mathlib.Algebra.Order.Field.Rat
import Mathlib.Algebra.Order.Floor.Defs
import Mathlib.Data.Rat.Floor

/-!
# Model of parts of xoa/cfgm.py: numeric validators, list wrapper, section filtering, patching,
option names
-/

namespace Xoa

/-! ## Numeric validators -/

/-- an item of the value given to `is_numerics`: a number, or a string with the result of
`type(string)` (`none` when it raises) -/
inductive NItem
  | num (q : ℚ)
  | str (parsed : Option ℚ)
  deriving DecidableEq, Repr

/-- `type="float"` or `type="int"` -/
inductive NType
  | float | int
  deriving DecidableEq, Repr

/-- `type(x)` on a number: `int` truncates toward zero -/
def NType.cast : NType → ℚ → ℚ
  | .float, q => q
  | .int, q => if 0 ≤ q then (⌊q⌋ : ℚ) else -(⌊-q⌋ : ℚ)

/-- the loop body of `is_numerics`, xoa/cfgm.py:244-255; `none` is `VdtTypeError` -/
def numItem (mn mx : Option ℚ) (t : NType) (it : NItem) : Option ℚ :=
  let val : Option ℚ := match it with
    | .num q => some q
    | .str p => p
  match val with
  | none => none
  | some v =>
    let v := match mn with
      | some m => if v < m then t.cast m else v
      | none => v
    let v := match mx with
      | some m => if m < v then t.cast m else v
      | none => v
    some v

/-- `is_numerics(value, min, max, type, n)`, xoa/cfgm.py:212-256, for a value that is a list
or tuple (or a string that evaluates to one); `none` is `VdtTypeError`. Simplifications: the
value `None` and the parsing of a string are not modelled; numbers are rationals (no NaN). -/
def isNumerics (value : List NItem) (mn mx : Option ℚ) (t : NType) (n : Option Nat) : Option (List ℚ) :=
  if n ≠ none ∧ n ≠ some value.length then none
  else value.mapM (numItem mn mx t)

def insertQ (a : ℚ) : List ℚ → List ℚ
  | [] => [a]
  | b :: l => if a ≤ b then a :: b :: l else b :: insertQ a l

/-- `list.sort` on numbers (insertion sort) -/
def sortQ : List ℚ → List ℚ
  | [] => []
  | a :: l => insertQ a (sortQ l)

/-- `is_minmax`, xoa/cfgm.py:259-270: `out` is sorted but `value` is returned -/
def isMinmax (value : List NItem) (mn mx : Option ℚ) (t : NType) : Option (List ℚ) :=
  match isNumerics value mn mx t (some 2) with
  | none => none
  | some v =>
    let _out := sortQ v
    some v

/-- arguments of the list validator wrapper -/
structure ListArgs where
  n : Option Nat := none
  nmin : Option Nat := none
  nmax : Option Nat := none
  odd : Bool := false
  even : Bool := false
  /-- is a `shape` given? -/
  shape : Option (List Nat) := none

/-- a value given to a list validator -/
inductive LVal (α : Type)
  | list (l : List α)
  | tuple (l : List α)
  | single (a : α)
  deriving DecidableEq, Repr

/-- the size checks, xoa/cfgm.py:128-179. The shape check compares a tuple to a list, hence
always raises, xoa/cfgm.py:164-167. -/
def sizeOk (a : ListArgs) (len : Nat) : Bool :=
  (match a.n with | some n => len == n | none => true) &&
  (match a.nmin with | some n => !(len < n : Bool) | none => true) &&
  (match a.nmax with | some n => !(n < len : Bool) | none => true) &&
  !(a.odd && len % 2 == 0) && !(a.even && len % 2 != 0) && a.shape.isNone

/-- `_valwraplist_(validator)`, xoa/cfgm.py:90-190, after the handling of `None` and of the
empty string; `none` is a validation error. -/
def listValidator {α β : Type} (validator : α → Option β) (a : ListArgs) (v : LVal α) : Option (LVal β) :=
  let (l, istuple) := match v with
    | .list l => (l, false)
    | .tuple l => (l, true)
    | .single x => ([x], false)
  if sizeOk a l.length then
    match l.mapM validator with
    | none => none
    | some out => some (if istuple then .tuple out else .list out)
  else none

/-! ## Configuration trees -/

/-- a configuration: scalars and sections -/
inductive CT (V : Type)
  | val (v : V)
  | sec (l : List (Str × CT V))

/-- filter specifications of `filter_section`: a flag or a dictionary with its special keys
`__default__` and `__excepts__` -/
inductive FT
  | flag (b : Bool)
  | node (dflt : Option Bool) (excepts : Option (List Str)) (items : List (Str × FT))

/-- truth value: an empty dictionary is false -/
def FT.truthy : FT → Bool
  | .flag b => b
  | .node d e items => d.isSome || e.isSome || !items.isEmpty

/-- `kdefault`, xoa/cfgm.py:1425-1436 -/
def keyDefault (d : Option Bool) (e : Option (List Str)) (dflt : Bool) (key : Str) : Bool :=
  let dv := d.getD dflt
  match e with
  | none => dv
  | some ex => if key ∈ ex then !dv else dv

/-- `cfgfilter.get(key, kdefault)` as a truth value, xoa/cfgm.py:1437 -/
def keepKey (d : Option Bool) (e : Option (List Str)) (items : List (Str × FT)) (dflt : Bool) (key : Str) : Bool :=
  match lookupS key items with
  | some f => f.truthy
  | none => keyDefault d e dflt key

mutual
/-- `filter_section(sec, cfgfilter, default)`, xoa/cfgm.py:1405-1446: the options of a section
are deleted first, then the remaining subsections that have a dictionary in the filter are
filtered, with the default `False`. The two passes are fused in one (they act on distinct
entries). -/
def filterSec {V : Type} (d : Option Bool) (e : Option (List Str)) (items : List (Str × FT)) (dflt : Bool) :
    List (Str × CT V) → List (Str × CT V)
  | [] => []
  | (k, t) :: rest =>
    if keepKey d e items dflt k then (k, filterSub (lookupS k items) t) :: filterSec d e items dflt rest
    else filterSec d e items dflt rest
/-- xoa/cfgm.py:1441-1445 -/
def filterSub {V : Type} (f : Option FT) : CT V → CT V
  | .val v => .val v
  | .sec l => match f with
    | some (.node d e items) => .sec (filterSec d e items false l)
    | _ => .sec l
end

/-! ### patch -/

/-- `cfg[k0][k1]...` -/
def getT {V : Type} : List Str → CT V → Option (CT V)
  | [], t => some t
  | k :: q, .sec l => (lookupS k l).bind (getT q)
  | _ :: _, .val _ => none

/-- `str.strip("_")` -/
def stripU (s : Str) : Str := ((s.dropWhile (· = '_')).reverse.dropWhile (· = '_')).reverse

/-- the items of a subsection, empty if it does not exist -/
def subItems {V : Type} (k : Str) (l : List (Str × CT V)) : List (Str × CT V) :=
  match lookupS k l with
  | some (.sec l') => l'
  | _ => []

/-- creation of the sections of `cfg` along the path while the patch has them,
xoa/cfgm.py:1914-1920 -/
def ensurePath {V : Type} : List Str → List (Str × CT V) → List (Str × CT V) → List (Str × CT V)
  | [], _, c => c
  | k :: q, p, c => match lookupS k p with
    | some (.sec p') => setS k (.sec (ensurePath q p' (subItems k c))) c
    | _ => c

/-- assignment in the section at a path -/
def setAt {V : Type} : List Str → Str → CT V → List (Str × CT V) → List (Str × CT V)
  | [], k, t, l => setS k t l
  | p :: q, k, t, l => setS p (.sec (setAt q k t (subItems p l))) l

/-- Python types of option values: `ty v` is `type(v)`, `cast t v` is `t(v)` (`none` when it
raises) -/
structure Typing (V : Type) where
  Ty : Type
  ty : V → Ty
  cast : Ty → V → Option V

/-- the value given to an option: converted to the type of the current one if possible,
xoa/cfgm.py:1923-1927 -/
def coerced {V : Type} (T : Typing V) (old : Option V) (v : V) : V :=
  match old with
  | some c => (T.cast (T.ty c) v).getD v
  | none => v

/-- scalar value at a path -/
def leafAt {V : Type} (q : List Str) (t : CT V) : Option V :=
  match getT q t with
  | some (.val v) => some v
  | _ => none

/-- `_walker_patch_(sec, patch_key, cfg, cfgpatch)`, xoa/cfgm.py:1910-1928, called for the
section at `path` (names stripped of underscores, xoa/cfgm.py:1902-1907).
Simplifications: an entry of the patch that is a section where the specifications have a
scalar is skipped; a section put in place of a scalar (or the opposite) simply replaces it. -/
def visit {V : Type} (T : Typing V) (pk : List Str × Str) (st : List (Str × CT V) × List (Str × CT V)) :
    List (Str × CT V) × List (Str × CT V) :=
  let path := pk.1.map stripU
  let c := ensurePath path st.2 st.1
  match leafAt (path ++ [pk.2]) (.sec st.2) with
  | none => (c, st.2)
  | some v =>
    let w := coerced T (leafAt (path ++ [pk.2]) (.sec c)) v
    (setAt path pk.2 (.val w) c, setAt path pk.2 (.val w) st.2)

mutual
/-- the scalars met by `ConfigObj.walk`, with the path of their section -/
def leavesL {V : Type} (path : List Str) : List (Str × CT V) → List (List Str × Str)
  | [] => []
  | (k, t) :: rest => leavesT path k t ++ leavesL path rest
def leavesT {V : Type} (path : List Str) (k : Str) : CT V → List (List Str × Str)
  | .val _ => [(path, k)]
  | .sec l => leavesL (path ++ [k]) l
end

/-- `ConfigManager.patch(cfg, cfgpatch)`, xoa/cfgm.py:1012-1050 (without validation): the walk
over the specifications then the walk over the patch. Walking visits the scalars of a section
before its subsections; the order of the visits has no influence here. -/
def patchCfg {V S : Type} (T : Typing V) (specs : List (Str × CT S)) (c p : List (Str × CT V)) : List (Str × CT V) :=
  let st := (leavesL [] specs).foldl (fun st pk => visit T pk st) (c, p)
  ((leavesL [] st.2).foldl (fun st pk => visit T pk st) st).1

/-! ## option names -/

/-- `re.compile(r"[_\s]").sub("-", name)` -/
def dashed (s : Str) : Str := s.map (fun c => if c = '_' || isSpace c then '-' else c)

/-- `_cfg2optname_(name, nested)`, xoa/cfgm.py:1622-1626 -/
def cfg2opt (name nested : Str) : Str :=
  let k := dashed name
  lower (if nested = [] then k else nested ++ '-' :: k)

/-- the attribute of the `argparse` namespace of an option: dashes become underscores -/
def argDest (s : Str) : Str := s.map (fun c => if c = '-' then '_' else c)

/-- `_opt2cfgname_(name, nested)`, xoa/cfgm.py:1612-1616 -/
def opt2cfg (name nested : Str) : Str :=
  let k := argDest name
  if nested ≠ [] ∧ (nested ++ ['_']).isPrefixOf k then k.drop (nested.length + 1) else k

/-- the flat name of an option: section names and key joined by `_`, xoa/cfgm.py:1758 and 1791 -/
def flatName (path : List Str) (key : Str) : Str :=
  List.intercalate ['_'] (path.map stripU ++ [key])

end Xoa
