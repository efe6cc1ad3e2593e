import Verif.Cfgm

/-!
# Model of `ConfigManager.load` and `ConfigManager.arg_parse` (xoa/cfgm.py)

The command line is a list of options given by their full long name, without the dashes, with or without a text:
the abbreviations of `argparse`, positional arguments, `extraopts` and short options are not modelled.
The option of the configuration file is `--cfgfile` (the default of `cfgfileopt`).
-/

namespace Xoa

/-- specification of a configuration option: its default, whether its type is `boolean`, and the check of a text by the
validator (`none` when it fails) -/
structure OptSpec (V : Type) where
  dflt : V
  isBool : Bool
  conv : Str → Option V

/-- booleans and texts as values -/
structure ValOps (V : Type) where
  /-- `value is False` -/
  isFalse : V → Bool
  ofBool : Bool → V
  ofStr : Str → V

inductive ArgErr
  | conflict      -- `ArgumentError`: two options of the same name
  | help          -- the help is shown and the program ends
  | unknown       -- unrecognised arguments
  | badValue      -- the validator fails
  | noValue       -- expected one argument
  | ignoredValue  -- a flag with a value
  deriving DecidableEq, Repr

mutual
/-- the default configuration, xoa/cfgm.py:820-862 -/
def dfltT {V : Type} : CT (OptSpec V) → CT V
  | .val s => .val s.dflt
  | .sec l => .sec (dfltL l)
def dfltL {V : Type} : List (Str × CT (OptSpec V)) → List (Str × CT V)
  | [] => []
  | (k, t) :: rest => (k, dfltT t) :: dfltL rest
end

/-! ## load -/

/-- one option of the validation: its default is set when the file does not have it -/
def fillOpt {V : Type} (specs : List (Str × CT (OptSpec V))) (cfg : List (Str × CT V)) (pk : List Str × Str) : List (Str × CT V) :=
  match leafAt (pk.1 ++ [pk.2]) (.sec cfg), leafAt (pk.1 ++ [pk.2]) (.sec specs) with
  | none, some s => setAt pk.1 pk.2 (.val s.dflt) cfg
  | _, _ => cfg

/-- `load(cfgfile)`, xoa/cfgm.py:908-1010: `fs` gives the values of an existing file, validated; a file that
does not exist is replaced by nothing (956-961). The validation sets the options that are missing to
their defaults (`ConfigObj.validate`). Errors of validation and `__many__` sections are not modelled. -/
def loadCfg {V : Type} (specs : List (Str × CT (OptSpec V))) (fs : Str → Option (List (Str × CT V))) (file : Str) : List (Str × CT V) :=
  (leavesL [] specs).foldl (fillOpt specs) ((fs file).getD [])

/-! ## declaration of the options -/

/-- a declared option: its name, and what it does. A flag (`store_true`, `store_false`) has no argument. -/
structure Decl (V : Type) where
  name : Str
  flag : Bool
  spec : OptSpec V

/-- `_walker_argcfg_setarg_(sec, key)`, xoa/cfgm.py:1777-1832, and the test of 1246: underscores around the key are removed, and the
specification of the resulting key is used. -/
def declOf {V : Type} (boolFalse : Bool) (exc : List Str) (nested : Str) (specs : List (Str × CT (OptSpec V))) (pk : List Str × Str) : Option (Decl V) :=
  let key := stripU pk.2
  if key ∈ exc ∨ (pk.1 = [] ∧ pk.2 ∈ exc) then none
  else (leafAt (pk.1 ++ [key]) (.sec specs)).map fun s => ⟨cfg2opt (flatName pk.1 key) nested, boolFalse && s.isBool, s⟩

/-- the names that the parser already has, xoa/cfgm.py:1158-1213 -/
def ownOpts : List Str := ["help".toList, "long-help".toList, "short-help".toList, "cfgfile".toList]

/-- the declarations, xoa/cfgm.py:1244-1278 -/
def declare {V : Type} (boolFalse : Bool) (exc : List Str) (nested : Str) (specs : List (Str × CT (OptSpec V))) : Except ArgErr (List (Decl V)) :=
  let ds := (leavesL [] specs).filterMap (declOf boolFalse exc nested specs)
  if (ownOpts ++ ds.map Decl.name).Nodup then .ok ds else .error .conflict

/-! ## parsing -/

/-- the value of a flag that is not given: `store_true` when the default `is False`, else `store_false`, xoa/cfgm.py:1824-1826 -/
def flagDflt {V : Type} (B : ValOps V) (s : OptSpec V) : Bool := !B.isFalse s.dflt

/-- the namespace before parsing: no value, or the default of the flags -/
def initNs {V : Type} (B : ValOps V) (ds : List (Decl V)) : List (Str × Option V) :=
  ds.map fun d => (argDest d.name, if d.flag then some (B.ofBool (flagDflt B d.spec)) else none)

/-- one option of the command line: the name of the configuration file, and the namespace -/
def parseOne {V : Type} (B : ValOps V) (ds : List (Decl V)) (st : Option Str × List (Str × Option V)) (g : Str × Option Str) :
    Except ArgErr (Option Str × List (Str × Option V)) :=
  if g.1 = "cfgfile".toList then
    match g.2 with
    | some t => .ok (some t, st.2)
    | none => .error .noValue
  else if g.1 ∈ ownOpts then .error .help
  else match ds.find? (fun d => decide (d.name = g.1)) with
    | none => .error .unknown
    | some d =>
      if d.flag then
        match g.2 with
        | some _ => .error .ignoredValue
        | none => .ok (st.1, setS (argDest d.name) (some (B.ofBool (!flagDflt B d.spec))) st.2)
      else match g.2 with
        | none => .error .noValue
        | some t => match d.spec.conv t with
          | none => .error .badValue
          | some v => .ok (st.1, setS (argDest d.name) (some v) st.2)

/-- `parser.parse_args(args)` -/
def parseArgs {V : Type} (B : ValOps V) (ds : List (Decl V)) : List (Str × Option Str) → Option Str × List (Str × Option V) →
    Except ArgErr (Option Str × List (Str × Option V))
  | [], st => .ok st
  | g :: gs, st => match parseOne B ds st g with
    | .error e => .error e
    | .ok st' => parseArgs B ds gs st'

/-- `options._get_kwargs()` -/
def allOpts {V : Type} (B : ValOps V) (st : Option Str × List (Str × Option V)) : List (Str × Option V) :=
  ("cfgfile".toList, st.1.map B.ofStr) :: st.2

/-! ## the configuration -/

/-- one option of the namespace in `_walker_argcfg_setcfg_`, xoa/cfgm.py:1758-1774 -/
def setIfMatches {V : Type} (nested : Str) (pk : List Str × Str) (cfg : List (Str × CT V)) (o : Str × Option V) : List (Str × CT V) :=
  match o.2 with
  | none => cfg
  | some v => if opt2cfg o.1 nested = lower (flatName pk.1 pk.2) then setAt pk.1 pk.2 (.val v) cfg else cfg

/-- the walk over the defaults with `_walker_argcfg_setcfg_`, xoa/cfgm.py:1303-1310 and 1753-1774. A scalar of `cfg` where the
defaults have a section is replaced. -/
def setCfg {V S : Type} (nested : Str) (specs : List (Str × CT S)) (opts : List (Str × Option V)) (cfg : List (Str × CT V)) : List (Str × CT V) :=
  (leavesL [] specs).foldl (fun c pk => opts.foldl (setIfMatches nested pk) c) cfg

/-- when the configuration file is used -/
inductive FileWhen
  | never | before | after
  deriving DecidableEq, Repr

/-- the argument `cfgfilepatch` -/
inductive CfgfilePatch
  | flag (b : Bool)
  | str (s : Str)

/-- xoa/cfgm.py:1291-1297 -/
def CfgfilePatch.when : CfgfilePatch → FileWhen
  | .flag b => if b then .before else .never
  | .str s => if s = [] then .never else if "a".toList.isPrefixOf (lower (strip s)) then .after else .before

/-- the argument `patch` -/
inductive PatchArg (V : Type)
  | no | yes
  | cfg (c : List (Str × CT V))

/-- arguments of `arg_parse` -/
structure ArgOpts (V : Type) where
  exc : List Str := []
  cfgfile : Option Str := some "config.cfg".toList
  patch : PatchArg V := .no
  cfgfilepatch : CfgfilePatch := .str "before".toList
  nested : Str := []

/-- `arg_parse(exc, args, cfgfile, patch, cfgfilepatch, nested)`, xoa/cfgm.py:1051-1317 -/
def argParse {V : Type} (B : ValOps V) (T : Typing V) (boolFalse : Bool) (specs : List (Str × CT (OptSpec V)))
    (fs : Str → Option (List (Str × CT V))) (o : ArgOpts V) (given : List (Str × Option Str)) : Except ArgErr (List (Str × CT V)) :=
  match declare boolFalse o.exc o.nested specs with
  | .error e => .error e
  | .ok ds => match parseArgs B ds given (o.cfgfile, initNs B ds) with
    | .error e => .error e
    | .ok st =>
      let cfg0 := match o.patch with
        | .no => []
        | .yes => patchCfg T specs [] (dfltL specs)
        | .cfg c => if c.isEmpty then [] else patchCfg T specs [] c
      let useFile := fun cfg => match st.1 with
        | none => cfg
        | some f => if f = [] then cfg else patchCfg T specs cfg (loadCfg specs fs f)
      let cfg1 := if o.cfgfilepatch.when = .before then useFile cfg0 else cfg0
      let cfg2 := setCfg o.nested specs (allOpts B st) cfg1
      .ok (if o.cfgfilepatch.when = .after then useFile cfg2 else cfg2)

end Xoa
