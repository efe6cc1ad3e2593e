import Verif.CfDims
import Verif.CfFormat

/-!
# The accessors of arrays and datasets as objects (xoa/accessors.py)
-/

namespace Xoa

/-- a `CFSpecs` as it is used by an accessor -/
structure CfView where
  sg : SG
  two : CfTwo

/-- the classes of accessors, xoa/accessors.py:40, 106, 147, 151, 155: on a dataset, on an array, and the two sub-accessors -/
inductive AccKind
  | dataset
  | array
  | coords
  | dataVars
  deriving DecidableEq, Repr

/-- `_search_category`, xoa/accessors.py:41, 107, 148 (an array accessor is a coordinate accessor, 155): `true` is `data_vars` -/
def AccKind.category : AccKind → Option Bool
  | .dataset => none
  | .array => some false
  | .coords => some false
  | .dataVars => some true

/-- `acc.get(name, loc, errors=errors)` with `single=True`, xoa/accessors.py:57-63 -/
def accGet (k : AccKind) (v : CfView) (dsa : DSA) (loc : MLoc) (name : Str) (errors : EMode) : Except MErr (Option (DObj × Str) × Nat) :=
  match k.category with
  | none => specsSearch v.sg v.two dsa loc name errors
  | some c => searchName v.sg (v.two.cat c) loc (dsa.objs c) name errors

/-- what the reading of an attribute gives -/
inductive AccVal
  | none
  | array (o : DObj)
  | attr (v : AttrVal)
  | accessor (on : Option DObj)

/-- an object or `None` -/
def AccVal.ofFound : Option (DObj × Str) → AccVal
  | Option.none => .none
  | some x => .array x.1

inductive AccAErr
  | matching (e : MErr)
  | recursion            -- AttributeError raised by the property `name`, whose fallback is `__getattr__`, which reads `name` again
  | attrs                -- error in `get_attrs` or `patch_attrs`

/-- `acc.<name>` when the accessor has no such attribute, and `acc[name]`, xoa/accessors.py:71-75, for all but the array accessor: the value and the number of warnings -/
def accGetattr (k : AccKind) (v : CfView) (dsa : DSA) (name : Str) : Except AccAErr (AccVal × Nat) :=
  ((accGet k v dsa .any name .warn).map fun r => (AccVal.ofFound r.1, r.2)).mapError .matching

/-- an array: its name, its attributes, if its name is one of its dimensions or coordinates, and itself as a container of coordinates -/
structure AccArr where
  name : Option Str
  attrs : Attrs
  isCoord : Bool
  coords : List DObj

def AccArr.dsa (a : AccArr) : DSA := ⟨none, a.coords⟩

/-- the category and the CF name of the array, xoa/accessors.py:157-163, on a new accessor -/
def AccArr.cfName (a : AccArr) (v : CfView) : Except AccAErr (Option (Bool × Str)) :=
  match specsMatch v.sg v.two a.isCoord .any (dobjOf a.name a.attrs) with
  | .error .attributeError => .error .recursion
  | .error e => .error (.matching e)
  | .ok r => .ok r

/-- xoa/accessors.py:169-172: `get_attrs(name, multi=True)` and `patch_attrs(attrs, cf_attrs)` with their default arguments -/
def AccArr.completed (a : AccArr) (v : CfView) (c : Bool) (n : Str) : Option Attrs :=
  (lookupS n (v.two.cat c)).bind fun spec =>
    (getAttrs v.sg spec none .none .keep true true []).1.toOption.bind fun cf => patchAttrs v.sg a.attrs cf .keep true false

/-- the property `attrs` of the array accessor, xoa/accessors.py:165-175, on a new accessor -/
def AccArr.cfAttrs (a : AccArr) (v : CfView) : Except AccAErr Attrs :=
  (a.cfName v).bind fun r =>
    match r with
    | none => .ok []
    | some p => match a.completed v p.1 p.2 with
      | some l => .ok l
      | none => .error .attrs

/-- `acc.<name>` for the array accessor when it has no such attribute, xoa/accessors.py:177-180 -/
def AccArr.getattr (a : AccArr) (v : CfView) (name : Str) : Except AccAErr (AccVal × Nat) :=
  (a.cfAttrs v).bind fun l =>
    match lookupS name l with
    | some x => .ok (.attr x, 0)
    | none => accGetattr .array v a.dsa name

/-- the properties `cf` and `decode_sigma` of the main accessors, xoa/accessors.py:214-236, on a new accessor: `ga` reads an attribute that is not set yet
(`__getattr__`), `attr` is the private attribute of the sub-accessor (`_cf` or `_sigma`). `hasattr` is false only if an `AttributeError` is raised; the sub-accessor is then made
on `self._ds`, which is not set by any accessor. -/
def subAccessor (ga : Str → Except AccAErr (AccVal × Nat)) (attr : Str) : Except AccAErr (AccVal × Nat) :=
  match ga attr with
  | .error (.matching .attributeError) => (ga "_ds".toList).map fun r =>
      match r.1 with
      | .array o => (.accessor (some o), r.2)
      | _ => (.accessor Option.none, r.2)
  | .error e => .error e
  | .ok r => (ga attr).map fun s => (s.1, r.2 + s.2)

/-! ## The specifications used by the accessors -/

/-- the state: the current specifications (xoa/cf.py:2322-2339), and the accessor of an object, which is made at the first access and kept by xarray,
with its specifications, and those of its sub-accessors `coords` and `data_vars` when they have been made -/
structure AccWorld (S : Type) where
  current : S
  acc : Option S
  coords : Option S
  dataVars : Option S

/-- what a user does -/
inductive AccOp (S : Type)
  | setCurrent (s : S)                  -- xoa.cf.set_cf_specs(s)
  | read                                -- obj.cfd
  | setAcc (s : S)                      -- obj.cfd.set_cf_specs(s)
  | readSub (vars : Bool)               -- obj.cfd.coords, obj.cfd.data_vars
  | setSub (vars : Bool) (s : S)        -- obj.cfd.coords.set_cf_specs(s)

/-- `obj.cfd`, xoa/accessors.py:43-49 at the first time -/
def AccWorld.touch {S : Type} (w : AccWorld S) : AccWorld S := { w with acc := some (w.acc.getD w.current) }

/-- the specifications of the accessor -/
def AccWorld.specs {S : Type} (w : AccWorld S) : S := w.acc.getD w.current

/-- a sub-accessor -/
def AccWorld.sub {S : Type} (w : AccWorld S) (vars : Bool) : Option S := if vars then w.dataVars else w.coords

/-- a sub-accessor is stored -/
def AccWorld.putSub {S : Type} (w : AccWorld S) (vars : Bool) (s : S) : AccWorld S :=
  if vars then { w with dataVars := some s } else { w with coords := some s }

/-- one step, xoa/accessors.py:51-55, 89-103 -/
def AccWorld.step {S : Type} (w : AccWorld S) : AccOp S → AccWorld S
  | .setCurrent s => { w with current := s }
  | .read => w.touch
  | .setAcc s => { w.touch with acc := some s }
  | .readSub v => w.touch.putSub v ((w.sub v).getD w.specs)
  | .setSub v s => w.touch.putSub v s

/-- a history -/
def AccWorld.run {S : Type} (w : AccWorld S) (h : List (AccOp S)) : AccWorld S := h.foldl AccWorld.step w

/-- the specifications used by `obj.cfd.get(...)` -/
def AccWorld.used {S : Type} (w : AccWorld S) : S := w.specs

/-- the specifications used by `obj.cfd.coords.get(...)` or `obj.cfd.data_vars.get(...)` -/
def AccWorld.usedSub {S : Type} (w : AccWorld S) (vars : Bool) : S := (w.sub vars).getD w.specs

end Xoa
