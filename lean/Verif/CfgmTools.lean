import Verif.Misc
import Verif.Cfgm

/-!
# Tools of `xoa/cfgm.py`: reset of a file, registry of the types, default values, paths, wrappers
-/

namespace Xoa

/-! ## `ConfigManager.reset`: the file system -/

/-- a file system: the contents of the files that exist -/
abbrev FS := Str → Option Str

/-- the file `p` has this content, or is removed -/
def FS.put (fs : FS) (p : Str) (c : Option Str) : FS := fun q => if q = p then c else fs q

/-- the successive states of the file system when `data` is written to the file `p` (`open(p, "wb")` and `write`): it is created empty, or emptied, and then it has any
part of the beginning of `data`; the last state is the complete one -/
def writeStates (p data : Str) (fs : FS) : List FS := data.inits.map (fun c => fs.put p (some c))

/-- name of the backup, xoa/cfgm.py:896 -/
def bakOf (f : Str) : Str := f ++ ".bak".toList

/-- the states of the file system during `shutil.copy(cfgfile, cfgfile + ".bak")` and `os.remove(cfgfile)`, xoa/cfgm.py:893-897 -/
def removeStates (backup : Bool) (f old : Str) (fs : FS) : List FS :=
  (if backup then writeStates (bakOf f) old fs else []) ++ [(if backup then fs.put (bakOf f) (some old) else fs).put f none]

/-- the file system after the removal -/
def afterRemove (backup : Bool) (f old : Str) (fs : FS) : FS := (if backup then fs.put (bakOf f) (some old) else fs).put f none

/-- all the states of the file system during `reset(cfgfile, backup)`, xoa/cfgm.py:865-907, the first one being the initial one; a crash leaves one of these. `dflt` is the text
of the default configuration, which is made before any change (889-890). -/
def resetStates (backup : Bool) (dflt f : Str) (fs : FS) : List FS :=
  match fs f with
  | some old => fs :: (removeStates backup f old fs ++ writeStates f dflt (afterRemove backup f old fs))
  | none => fs :: writeStates f dflt fs

/-- the file system after `reset` -/
def resetFS (backup : Bool) (dflt f : Str) (fs : FS) : FS := (resetStates backup dflt f fs).getLast?.getD fs

/-! ## The registry of the types of options -/

/-- the specifications of a type: the validation function, and whether it is its list form -/
structure VSpec where
  func : Str
  list : Bool
  deriving DecidableEq, Repr

/-- `VALIDATOR_SPECS` -/
abbrev VReg := List (Str × VSpec)

/-- the plural form of the name of a type, xoa/cfgm.py:617-622 -/
def plural (k : Str) : Str :=
  if k.getLast? = some 'y' then k.dropLast ++ "ies".toList
  else if k.getLast? = some 'x' then k ++ "es".toList
  else k ++ "s".toList

/-- `if nk not in VALIDATOR_SPECS: ...`, xoa/cfgm.py:624-628 -/
def addForm (v : VSpec) (reg : VReg) (nk : Str) : VReg :=
  if (lookupS nk reg).isSome then reg else setS nk { v with list := true } reg

/-- the two list forms of a type, xoa/cfgm.py:617-628 -/
def addForms (reg : VReg) (p : Str × VSpec) : VReg := addForm p.2 (addForm p.2 reg (plural p.1)) (p.1 ++ "_list".toList)

/-- `_update_registry_()`, xoa/cfgm.py:597-641 -/
def updateRegistry (reg : VReg) : VReg := reg.foldl addForms reg

/-- `register_validation_functions(**kwargs)`, xoa/cfgm.py:658-678 -/
def registerFns (reg : VReg) (fns : List (Str × Str)) : VReg :=
  updateRegistry (updateS reg (fns.map (fun p => (p.1, ⟨p.2, false⟩))))

/-- several calls of `register_validation_functions()` -/
def updates : Nat → VReg → VReg
  | 0, reg => reg
  | n + 1, reg => updateRegistry (updates n reg)

/-! ## Paths in a configuration -/

/-- a section: the configuration itself, or a section of a section -/
inductive CSec
  | root
  | sub (parent : CSec) (name : Str)

/-- `cfg.depth` -/
def CSec.depth : CSec → Nat
  | .root => 0
  | .sub p _ => p.depth + 1

/-- `cfg.name` (the root has none) -/
def CSec.name : CSec → Str
  | .root => []
  | .sub _ n => n

/-- `cfg.parent` (the parent of the root is itself) -/
def CSec.parent : CSec → CSec
  | .root => .root
  | .sub p _ => p

/-- the loop of `get_sec_names`, xoa/cfgm.py:1951-1953 -/
def secLoop : Nat → CSec → List Str → List Str
  | 0, _, l => l
  | n + 1, c, l => secLoop n c.parent (l ++ [c.parent.name])

/-- `get_sec_names(cfg)`, xoa/cfgm.py:1946-1954 -/
def getSecNames (c : CSec) : List Str :=
  if c.depth = 0 then [] else (secLoop (c.depth - 1) c [c.name]).reverse

/-- the loop of `get_cfg_path`, xoa/cfgm.py:1981-1983 -/
def pathLoop : CSec → List Str → List Str
  | .root, l => l
  | .sub p n, l => pathLoop p (l ++ [n])

/-- `get_cfg_path(cfg, entry, sep)`, xoa/cfgm.py:1957-1984 -/
def getCfgPath (c : CSec) (entry : Option Str) (sep : Str) : Str :=
  sep.intercalate (pathLoop c entry.toList).reverse

/-! ## `_valwrap_` -/

/-- a Python function `f(value, a, b=.., *, c=.., **kw)`: its positional arguments after the first one, its keyword-only ones, whether it takes any other one,
and what it does; a call that does not fit the arguments is a `TypeError` -/
structure PyFn (α β : Type) where
  args : List Str
  kwonly : List Str
  varkw : Bool
  body : α → List α → List (Str × α) → β

/-- a call `f(value, *pos, **kw)`: `none` is a `TypeError` -/
def PyFn.call {α β : Type} (f : PyFn α β) (value : α) (pos : List α) (kw : List (Str × α)) : Option β :=
  if f.args.length < pos.length then none
  else if kw.all (fun p => decide (p.1 ∈ f.args.drop pos.length) || decide (p.1 ∈ f.kwonly) || (f.varkw && decide (p.1 ∉ f.args))) then some (f.body value pos kw)
  else none

/-- `_valwrap_(validator)`, xoa/cfgm.py:64-87: the call of the wrapped function; `getfullargspec(validator).args` are the positional arguments only
(the name of the first one is not used as a keyword in specifications) -/
def PyFn.wrapped {α β : Type} (f : PyFn α β) (value : α) (pos : List α) (kw : List (Str × α)) : Option β :=
  f.call value pos (kw.filter (fun p => decide (p.1 ∈ f.args)))

/-! ## `remove_defaults` -/

/-- a value of an option, or the default given by its specifications, which is a text, a list of texts or nothing -/
inductive CV
  | none
  | str (s : Str)
  | int (n : Int)
  | bool (b : Bool)
  | list (l : List CV)

mutual
/-- equality of values -/
def CV.eq : CV → CV → Bool
  | .none, .none => true
  | .str a, .str b => decide (a = b)
  | .int a, .int b => decide (a = b)
  | .bool a, .bool b => a == b
  | .bool a, .int b => decide ((if a then 1 else 0) = b)
  | .int a, .bool b => decide (a = if b then 1 else 0)
  | .list a, .list b => CV.eqs a b
  | _, _ => false
/-- equality of lists of values -/
def CV.eqs : List CV → List CV → Bool
  | [], [] => true
  | a :: l, b :: m => CV.eq a b && CV.eqs l m
  | _, _ => false
end

/-- a configuration: its options and its sections, in order -/
inductive CTree
  | opt (name : Str) (value : CV)
  | sec (name : Str) (items : List CTree)

/-- the specifications of a section: the default of each option (`none` when it has none), and those of its sections -/
inductive CSpecT
  | sec (opts : List (Str × CV)) (subs : List (Str × CSpecT))

/-- `get_spec(sec.configspec.get(key, "")).default`, xoa/cfgm.py:1736: an unknown option has no default -/
def rawDefault (opts : List (Str × CV)) (k : Str) : CV := (lookupS k opts).getD .none

/-- `not sec.configspec`, xoa/cfgm.py:1734-1735 -/
def CSpecT.isEmpty : CSpecT → Bool
  | .sec opts subs => opts.isEmpty && subs.isEmpty

/-- the specifications of a sub-section (empty when it is not in the specifications) -/
def CSpecT.sub : CSpecT → Str → CSpecT
  | .sec _ subs, n => (lookupS n subs).getD (.sec [] [])

/-- the default of an option of the section -/
def CSpecT.default : CSpecT → Str → CV
  | .sec opts _, k => rawDefault opts k

mutual
/-- `remove_defaults(cfg)`, xoa/cfgm.py:1733-1750, on the items of a section -/
def removeItems (s : CSpecT) : List CTree → List CTree
  | [] => []
  | t :: l => removeItem s t ++ removeItems s l
/-- one item: an option is removed when it is the default of its specifications -/
def removeItem (s : CSpecT) : CTree → List CTree
  | .opt k v => if !s.isEmpty && CV.eq (s.default k) v then [] else [.opt k v]
  | .sec n items => [.sec n (removeItems (s.sub n) items)]
end

end Xoa
