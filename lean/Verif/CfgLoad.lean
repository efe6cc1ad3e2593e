import Verif.ArgParse

/-!
# Model of `ConfigManager.load` with patches, filters and validation, and of `arg_patch` (xoa/cfgm.py)

Values of files, of patches and of keywords are in one type `V`; the validator of an option is a partial function on it.
`__many__` sections, interpolation, comments and the order of the options are not modelled.
-/

namespace Xoa

/-- specification of an option for the validation: the check of its value (`none` when it is refused) and its default
(`none` when it has no default) -/
structure LoadSpec (V : Type) where
  chk : V → Option V
  dflt : Option V

/-- the value of one option after `ConfigObj.validate`, used by xoa/cfgm.py:989: the check of its value, or its default when it has
no value; `none` is an error -/
def checked {V : Type} (s : LoadSpec V) : Option V → Option V
  | some v => s.chk v
  | none => s.dflt

/-- one option of `ConfigObj.validate`: the flag becomes `false` at an error -/
def checkOpt {V : Type} (specs : List (Str × CT (LoadSpec V))) (st : List (Str × CT V) × Bool) (pk : List Str × Str) :
    List (Str × CT V) × Bool :=
  match leafAt (pk.1 ++ [pk.2]) (.sec specs) with
  | none => st
  | some s => match checked s (leafAt (pk.1 ++ [pk.2]) (.sec st.1)) with
    | some w => (setAt pk.1 pk.2 (.val w) st.1, st.2)
    | none => (st.1, false)

/-- is it an option -/
def isVal {V : Type} : Option (CT V) → Bool
  | some (.val _) => true
  | _ => false

/-- is it a section -/
def isSec {V : Type} : Option (CT V) → Bool
  | some (.sec _) => true
  | _ => false

/-- the configuration has an option where the specifications have a section, or the opposite: errors of `ConfigObj.validate`
(sections of the specifications without options are not looked at) -/
def shapeError {V : Type} (specs : List (Str × CT (LoadSpec V))) (c : List (Str × CT V)) : Bool :=
  (leavesL [] specs).any (fun pk => pk.1.inits.any (fun q => isVal (getT q (.sec c))) || isSec (getT (pk.1 ++ [pk.2]) (.sec c)))

inductive LoadErr
  | validate   -- `XoaValidateError`
  deriving DecidableEq, Repr

/-- the validation in `load`, xoa/cfgm.py:985-1008: the first error is raised -/
def validateCfg {V : Type} (specs : List (Str × CT (LoadSpec V))) (c : List (Str × CT V)) : Except LoadErr (List (Str × CT V)) :=
  if shapeError specs c then .error .validate
  else
    let st := (leavesL [] specs).foldl (checkOpt specs) (c, true)
    if st.2 then .ok st.1 else .error .validate

/-- the argument `cfgfile` -/
inductive FileArg (V : Type)
  | none
  | name (f : Str)
  | cfg (c : List (Str × CT V))

/-- xoa/cfgm.py:954-972: the values of the configuration that is loaded; `fs` gives those of an existing file -/
def readCfg {V : Type} (fs : Str → Option (List (Str × CT V))) : FileArg V → List (Str × CT V)
  | .none => []
  | .name f => (fs f).getD []
  | .cfg c => c

/-- the argument `patch`: a dictionary (or a file), or a `ConfigObj` -/
inductive PatchSrc (V : Type)
  | dict (p : List (Str × CT V))
  | obj (p : List (Str × CT V))

def PatchSrc.tree {V : Type} : PatchSrc V → List (Str × CT V)
  | .dict p => p
  | .obj p => p

/-- the argument `validate` -/
inductive ValidateArg
  | flag (b : Bool)
  | str (s : Str)

/-- its truth value, xoa/cfgm.py:986 -/
def ValidateArg.truthy : ValidateArg → Bool
  | .flag b => b
  | .str s => !s.isEmpty

/-- a filter: `__default__`, `__excepts__` and the other items -/
structure Filt where
  d : Option Bool
  e : Option (List Str)
  items : List (Str × FT)

/-- the argument `cfgfilter` of `load` -/
inductive FilterArg
  | flag (b : Bool)
  | dict (f : Filt)

def Filt.truthy (f : Filt) : Bool := f.d.isSome || f.e.isSome || !f.items.isEmpty

/-- the filter that is used, xoa/cfgm.py:980-983: none without a filter given at the initialisation -/
def usedFilter (own : Option Filt) (arg : FilterArg) : Option Filt :=
  match own with
  | none => none
  | some f => if f.truthy then (match arg with
      | .flag true => some f
      | .flag false => none
      | .dict g => if g.truthy then some g else none) else none

/-- the patch applied, xoa/cfgm.py:974-978: the keywords patch the patch -/
def loadPatch {V S : Type} (T : Typing V) (specs : List (Str × CT S)) (patch : Option (List (Str × CT V))) (kw : List (Str × CT V)) :
    Option (List (Str × CT V)) :=
  if kw.isEmpty then patch else some (patchCfg T specs (patch.getD []) kw)

/-- the configuration before its validation, xoa/cfgm.py:954-983 -/
def loadRaw {V S : Type} (T : Typing V) (specs : List (Str × CT S)) (src : List (Str × CT V)) (patch : Option (List (Str × CT V)))
    (kw : List (Str × CT V)) : List (Str × CT V) :=
  match loadPatch T specs patch kw with
  | none => src
  | some p => patchCfg T specs src p

structure LoadOpts (V : Type) where
  cfgfile : FileArg V := .name "config.cfg".toList
  patch : Option (PatchSrc V) := none
  validate : ValidateArg := .flag true
  cfgfilter : FilterArg := .flag false
  kw : List (Str × CT V) := []

/-- the filtering of the configuration -/
def loadFilter {V : Type} (own : Option Filt) (ownDflt : Bool) (arg : FilterArg) (c : List (Str × CT V)) : List (Str × CT V) :=
  match usedFilter own arg with
  | none => c
  | some f => filterSec f.d f.e f.items ownDflt c

/-- `load(cfgfile, patch, validate, cfgfilter=cfgfilter, **kwpatch)`, xoa/cfgm.py:908-1010, of a manager whose filter is `own` with the
default `ownDflt` -/
def loadFull {V : Type} (T : Typing V) (specs : List (Str × CT (LoadSpec V))) (own : Option Filt) (ownDflt : Bool)
    (fs : Str → Option (List (Str × CT V))) (o : LoadOpts V) : Except LoadErr (List (Str × CT V)) :=
  let raw := loadRaw T specs (readCfg fs o.cfgfile) (o.patch.map PatchSrc.tree) o.kw
  let c := loadFilter own ownDflt o.cfgfilter raw
  if o.validate.truthy && !specs.isEmpty then validateCfg specs c else .ok c

/-! ## the patch object -/

/-- the configuration and the patch after `patch`, xoa/cfgm.py:1012-1050: the values converted are stored in both, 1923-1928 -/
def patchBoth {V S : Type} (T : Typing V) (specs : List (Str × CT S)) (c p : List (Str × CT V)) : List (Str × CT V) × List (Str × CT V) :=
  let st := (leavesL [] specs).foldl (fun st pk => visit T pk st) (c, p)
  (leavesL [] st.2).foldl (fun st pk => visit T pk st) st

/-- the object given as `cfgpatch` after `patch(cfg, cfgpatch)`, xoa/cfgm.py:1026-1042: a dictionary is copied to a `ConfigObj` first -/
def patchAfter {V S : Type} (T : Typing V) (specs : List (Str × CT S)) (c : List (Str × CT V)) : PatchSrc V → PatchSrc V
  | .dict p => .dict p
  | .obj p => .obj (patchBoth T specs c p).2

/-- the object given as `patch` after `load`, xoa/cfgm.py:974-978: with keywords, a `ConfigObj` that is not empty is
itself patched by them before being used -/
def loadPatchAfter {V S : Type} (T : Typing V) (specs : List (Str × CT S)) (src : List (Str × CT V)) (kw : List (Str × CT V)) :
    PatchSrc V → PatchSrc V
  | .dict p => .dict p
  | .obj p =>
    if kw.isEmpty then .obj (patchBoth T specs src p).2
    else if p.isEmpty then .obj p
    else .obj (patchBoth T specs src (patchCfg T specs p kw)).2

/-! ## arg_patch -/

/-- the namespace of the command line, xoa/cfgm.py:1335-1341 -/
def parsedFile {V : Type} (B : ValOps V) (boolFalse : Bool) (specs : List (Str × CT (OptSpec V))) (exc : List Str)
    (given : List (Str × Option Str)) : Option Str :=
  match declare boolFalse exc [] specs with
  | .error _ => none
  | .ok ds => match parseArgs B ds given (some "config.cfg".toList, initNs B ds) with
    | .error _ => none
    | .ok st => st.1

/-- `arg_patch(parser, exc)`, xoa/cfgm.py:1326-1346: `arg_parse` with its default options, `load` of the file of the command line, and a patch of the
second by the first -/
def argPatch {V : Type} (B : ValOps V) (T : Typing V) (boolFalse : Bool) (specs : List (Str × CT (OptSpec V)))
    (fs : Str → Option (List (Str × CT V))) (exc : List Str) (given : List (Str × Option Str)) : Except ArgErr (List (Str × CT V)) :=
  match argParse B T boolFalse specs fs { exc := exc } given with
  | .error e => .error e
  | .ok p => .ok (patchCfg T specs
      (match parsedFile B boolFalse specs exc given with
        | some f => loadCfg specs fs f
        | none => (leavesL [] specs).foldl (fillOpt specs) []) p)

/-- `cfgargparse(cfgspecfile, parser, cfgfile=cfgfile, exc=exc, args=args)`, xoa/cfgm.py:1448-1503, where `specs` are the specifications of the
manager that it creates -/
def cfgArgParse {V : Type} (B : ValOps V) (T : Typing V) (boolFalse : Bool) (specs : List (Str × CT (OptSpec V)))
    (fs : Str → Option (List (Str × CT V))) (cfgfile : Str) (exc : List Str) (given : List (Str × Option Str)) : Except ArgErr (List (Str × CT V)) :=
  argParse B T boolFalse specs fs { exc := exc, cfgfile := some cfgfile } given

end Xoa
