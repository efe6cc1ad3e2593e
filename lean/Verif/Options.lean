import Verif.Misc

/-!
# Model of the options machinery of xoa/__init__.py and of set_cf_specs (xoa/cf.py)

`_CACHE["options"]` is a reference to a mutable `ConfigObj`; it is modelled by an address into
a store of option contents, so that in place merging and aliasing through the context
managers are visible.

Simplifications: a `ConfigObj` is a two level mapping section → option → value (no top level
scalars, no nested sections, no comments and no `%(name)s` interpolation); parsing of files and
lines is not modelled, its outcome (contents or error) is an input; the user configuration
file is readable and does not change during the session.
-/

namespace Xoa

/-- option values -/
inductive OVal
  | str (s : Str)
  | bool (b : Bool)
  | int (n : Int)
  deriving DecidableEq, Repr

abbrev Opts := List (Str × List (Str × OVal))

/-- `options[section][option]` -/
def get2 (sec opt : Str) (o : Opts) : Option OVal := (lookupS sec o).bind (lookupS opt)

/-- `options.setdefault(section, {})[option] = value` -/
def set2 (sec opt : Str) (v : OVal) (o : Opts) : Opts :=
  setS sec (setS opt v ((lookupS sec o).getD [])) o

/-- `ConfigObj.merge`: recursive update, used at xoa/__init__.py:169-173 -/
def mergeO (o c : Opts) : Opts :=
  c.foldl (fun o p => setS p.1 (updateS ((lookupS p.1 o).getD []) p.2) o) o

inductive Kind
  | boolean
  | string

/-- the validator functions `is_boolean` and `is_string`; `none` is `VdtTypeError` -/
def convert (k : Kind) (v : OVal) : Option OVal :=
  match k, v with
  | .boolean, .str s =>
    if lower s ∈ ["on".toList, "1".toList, "true".toList, "yes".toList] then some (.bool true)
    else if lower s ∈ ["off".toList, "0".toList, "false".toList, "no".toList] then some (.bool false)
    else none
  | .boolean, .bool b => some (.bool b)
  | .boolean, .int n => if n = 0 then some (.bool false) else if n = 1 then some (.bool true) else none
  | .string, .str s => some (.str s)
  | .string, _ => none

/-- `CONFIG_SPECS`, xoa/__init__.py:61-73 -/
def configSpecs : List ((Str × Str) × Kind × OVal) :=
  [(("cf".toList, "accessors".toList), .boolean, .bool true),
   (("cf".toList, "cache".toList), .boolean, .bool true),
   (("plot".toList, "cmapdiv".toList), .string, .str "cmo.balance".toList),
   (("plot".toList, "cmappos".toList), .string, .str "cmo.amp".toList),
   (("plot".toList, "cmapneg".toList), .string, .str "cmo.tempo_r".toList),
   (("plot".toList, "cmapcyc".toList), .string, .str "cmo.phase".toList)]

/-- validation of one entry: a missing one gets its default, a valid one is converted, an
invalid one is left as it is (the report returned by `validate` is not looked at) -/
def validateOne (o : Opts) (p : (Str × Str) × Kind × OVal) : Opts :=
  match get2 p.1.1 p.1.2 o with
  | none => set2 p.1.1 p.1.2 p.2.2 o
  | some v => match convert p.2.1 v with
    | some w => set2 p.1.1 p.1.2 w o
    | none => o

/-- `_CACHE["options"].validate(...)`, xoa/__init__.py:174 -/
def validateO (o : Opts) : Opts := configSpecs.foldl validateOne o

/-- The store of `ConfigObj`s and the reference `_CACHE["options"]` -/
structure OSt where
  objs : List Opts
  cur : Option Nat
  deriving Repr

/-- the argument of `load_options`: something that parses to contents (a dict, lines or a
file; `[]` also stands for no argument), or something that does not -/
inductive LoadArg
  | cfg (c : Opts)
  | bad

/-- xoa/__init__.py:157-167: create the options from the user file if there is none -/
def ensure (user : Opts) (s : OSt) : OSt :=
  match s.cur with
  | some _ => s
  | none => { objs := s.objs ++ [user], cur := some s.objs.length }

/-- contents of an address -/
def OSt.at (s : OSt) (a : Nat) : Opts := s.objs.getD a []

/-- `load_options(cfgfile)`, xoa/__init__.py:126-174. The flag tells if it raised. -/
def loadOptions (user : Opts) (arg : LoadArg) (s : OSt) : OSt × Bool :=
  let s := ensure user s
  match arg with
  | .bad => (s, true)
  | .cfg c => match s.cur with
    | some a => ({ s with objs := s.objs.set a (validateO (mergeO (s.at a) c)) }, false)
    | none => (s, true)  -- not reachable

/-- the regular expression `^(\w+)\W(\w+)$` of xoa/__init__.py:59 (`$` also matches before a
final newline) -/
def splitOption (s : Str) : Option (Str × Str) :=
  let a := s.takeWhile isWord
  match s.dropWhile isWord with
  | [] => none
  | _ :: r =>
    let b := r.takeWhile isWord
    let t := r.dropWhile isWord
    if a ≠ [] ∧ b ≠ [] ∧ (t = [] ∨ t = ['\n']) then some (a, b) else none

/-- `get_option` outcome: a value, an exception object *returned*, an exception raised -/
inductive GetRes
  | val (v : OVal)
  | returnedError
  | raised
  deriving DecidableEq, Repr

/-- `get_option(section, option)`, xoa/__init__.py:182-207 -/
def getOption (user : Opts) (section_ : Str) (option : Option Str) (s : OSt) : OSt × GetRes :=
  -- _get_options_, :176-179
  let s := match s.cur with
    | some _ => s
    | none => (loadOptions user (.cfg []) s).1
  let o := match s.cur with
    | some a => s.at a
    | none => []
  let look (sec opt : Str) : GetRes := match get2 sec opt o with
    | some v => .val v
    | none => .returnedError
  match option with
  | some opt => (s, look section_ opt)
  | none => match splitOption section_ with
    | some (sec, opt) => (s, look sec opt)
    | none => (s, .raised)

/-- the loop of `set_options.__init__`, xoa/__init__.py:246-257; `none` is `XoaConfigError` -/
def collectOpts (section_ : Option Str) : List (Str × OVal) → Opts → Option Opts
  | [], acc => some acc
  | (name, v) :: rest, acc =>
    match splitOption name with
    | some (sec, opt) => collectOpts section_ rest (set2 sec opt v acc)
    | none => match section_ with
      | none => none
      | some sec => collectOpts section_ rest (set2 sec name v acc)

/-- `set_options.__init__`, xoa/__init__.py:241-260: returns the state, whether it raised, and
`self.old_options` -/
def setInit (user : Opts) (section_ : Option Str) (options : List (Str × OVal)) (s : OSt) :
    OSt × Bool × Option Nat :=
  match s.cur with
  | none => (s, true, none)                          -- del: KeyError
  | some a =>
    let s' := { s with cur := none }
    match collectOpts section_ options [] with
    | none => (s', true, some a)
    | some c => let r := loadOptions user (.cfg c) s'
      (r.1, r.2, some a)

/-- `set_options.__exit__`, xoa/__init__.py:265-269 -/
def setExit (old : Option Nat) (s : OSt) : OSt × Bool :=
  match old with
  | some a => if s.at a ≠ [] then ({ s with cur := some a }, false)
    else match s.cur with
      | some _ => ({ s with cur := none }, false)
      | none => (s, true)
  | none => match s.cur with
      | some _ => ({ s with cur := none }, false)
      | none => (s, true)

/-- `reset_options()`, xoa/__init__.py:293-306 -/
def resetOptions (s : OSt) : OSt × Bool :=
  match s.cur with
  | some _ => ({ s with cur := none }, false)
  | none => (s, true)

/-- A user program over the options. -/
inductive Stmt
  | load (a : LoadArg)
  | set (sec : Option Str) (o : List (Str × OVal))
  | reset
  | get (sec : Str) (opt : Option Str)
  | raise
  | with_ (sec : Option Str) (o : List (Str × OVal)) (body : List Stmt)
  | try_ (body : List Stmt)

mutual
/-- execution; the flag tells if the statement raised -/
def exec (user : Opts) : Stmt → OSt → OSt × Bool
  | .load a, s => loadOptions user a s
  | .set sec o, s => let r := setInit user sec o s; (r.1, r.2.1)
  | .reset, s => resetOptions s
  | .get sec opt, s => let r := getOption user sec opt s; (r.1, r.2 == .raised)
  | .raise, s => (s, true)
  | .with_ sec o body, s =>
    let r := setInit user sec o s
    if r.2.1 then (r.1, true)
    else
      let b := execL user body r.1
      let e := setExit r.2.2 b.1
      (e.1, b.2 || e.2)
  | .try_ body, s => ((execL user body s).1, false)

def execL (user : Opts) : List Stmt → OSt → OSt × Bool
  | [], s => (s, false)
  | st :: rest, s =>
    let r := exec user st s
    if r.2 then (r.1, true) else execL user rest r.1
end

/-! ## set_cf_specs -/

/-- `_CACHE["specs"]` of xoa/cf.py: a reference to a `CFSpecs` object; `next` is the next
fresh object -/
structure CfSt where
  specs : Option Nat
  next : Nat
  deriving DecidableEq, Repr

inductive CfStmt
  /-- `get_cf_specs()`: builds the specs when there is none (xoa/cf.py:2399-2431) -/
  | get
  /-- `set_cf_specs(obj)` outside of a `with` (xoa/cf.py:2325-2330) -/
  | set (obj : Nat)
  /-- `reset_cache(memory=True)` (xoa/cf.py:2342-2359) -/
  | resetMemory
  | raise
  | with_ (obj : Nat) (body : List CfStmt)
  | try_ (body : List CfStmt)

mutual
def execCf : CfStmt → CfSt → CfSt × Bool
  | .get, s => match s.specs with
    | some _ => (s, false)
    | none => ({ specs := some s.next, next := s.next + 1 }, false)
  | .set o, s => ({ s with specs := some o }, false)
  | .resetMemory, s => ({ s with specs := none }, false)
  | .raise, s => (s, true)
  | .with_ o body, s =>
    -- __init__, :2325-2330
    let old := s.specs
    let b := execCfL body { s with specs := some o }
    -- __exit__, :2335-2339
    match old with
    | some a => ({ b.1 with specs := some a }, b.2)
    | none => match b.1.specs with
      | some _ => ({ b.1 with specs := none }, b.2)
      | none => (b.1, true)                          -- del: KeyError
  | .try_ body, s => ((execCfL body s).1, false)

def execCfL : List CfStmt → CfSt → CfSt × Bool
  | [], s => (s, false)
  | st :: rest, s =>
    let r := execCf st s
    if r.2 then (r.1, true) else execCfL rest r.1
end

end Xoa
