import Verif.CfgLoad
import Mathlib.Data.List.Dedup

/-!
# Model of the validation of `ConfigManager.load` (xoa/cfgm.py:985-1008) with `__many__` specifications

The specifications of xoa (xoa/cf.ini:14,30,45) have sections named `__many__`, for all the sections without a name of their own, and
an option named `__many__`, for all the options without a name of their own.  They are read by `ConfigObj.validate`, called
at xoa/cfgm.py:989.  `___many___`, `DEFAULT` sections and the sections left empty are not modelled.
-/

namespace Xoa

/-- the reserved name of `ConfigObj`, xoa/cf.ini:14 -/
def manyKey : Str := "__many__".toList

/-- is it a section -/
def CT.isSecT {V : Type} : CT V → Bool
  | .val _ => false
  | .sec _ => true

/-- the items of a section of the configuration, none when it does not exist -/
def itemsOf {V : Type} : Option (CT V) → List (Str × CT V)
  | some (.sec l) => l
  | _ => []

/-- is it present with this kind -/
def hasKind {V : Type} (sec : Bool) : Option (CT V) → Bool
  | some t => t.isSecT == sec
  | none => false

/-- the entries of the configuration that `__many__` is for: those that the specifications of the section do not name, sections
when it is a section (`_set_configspec` of `ConfigObj`), options when it is an option (`validate` of `ConfigObj`) -/
def extraKeys {V : Type} (keys : List Str) (sec : Bool) (c : List (Str × CT V)) : List Str :=
  (c.map Prod.fst).dedup.filter (fun k => !keys.contains k && hasKind sec (lookupS k c))

mutual
/-- the specifications used for a section `c` of the configuration, after `_set_configspec` of `ConfigObj` called by the validation of
xoa/cfgm.py:989; `keys` are all the names of the section of the specifications -/
def expandL {S V : Type} (keys : List Str) : List (Str × CT S) → List (Str × CT V) → List (Str × CT S)
  | [], _ => []
  | (k, t) :: rest, c =>
    (if k = manyKey then (extraKeys keys t.isSecT c).map (fun k' => (k', expandT t (lookupS k' c))) else [(k, expandT t (lookupS k c))])
      ++ expandL keys rest c
/-- the same for an entry: those of an option are its own -/
def expandT {S V : Type} : CT S → Option (CT V) → CT S
  | .val s, _ => .val s
  | .sec l, c => .sec (expandL (l.map Prod.fst) l (itemsOf c))
end

mutual
/-- a section where an option is expected, or the opposite: the errors reported by `validate` of `ConfigObj` at xoa/cfgm.py:989 -/
def misfitL {S V : Type} (keys : List Str) : List (Str × CT S) → List (Str × CT V) → Bool
  | [], _ => false
  | (k, t) :: rest, c =>
    (if k = manyKey then (extraKeys keys t.isSecT c).any (fun k' => misfitT t (lookupS k' c)) else misfitT t (lookupS k c))
      || misfitL keys rest c
def misfitT {S V : Type} : CT S → Option (CT V) → Bool
  | .val _, c => hasKind true c
  | .sec l, c => hasKind false c || misfitL (l.map Prod.fst) l (itemsOf c)
end

/-- the specifications of a configuration: those of `specs` with its `__many__` replaced -/
def expandSpecs {S V : Type} (specs : List (Str × CT S)) (c : List (Str × CT V)) : List (Str × CT S) := expandL (specs.map Prod.fst) specs c

/-- the validation in `load`, xoa/cfgm.py:985-1008 -/
def validateMany {V : Type} (specs : List (Str × CT (LoadSpec V))) (c : List (Str × CT V)) : Except LoadErr (List (Str × CT V)) :=
  if misfitL (specs.map Prod.fst) specs c then .error .validate else validateCfg (expandSpecs specs c) c

/-- `load(cfgfile, patch, validate, cfgfilter=cfgfilter, **kwpatch)`, xoa/cfgm.py:908-1010, with specifications that may have `__many__`; the
patches walk over the specifications as they are written, xoa/cfgm.py:1044-1048 -/
def loadMany {V : Type} (T : Typing V) (specs : List (Str × CT (LoadSpec V))) (own : Option Filt) (ownDflt : Bool)
    (fs : Str → Option (List (Str × CT V))) (o : LoadOpts V) : Except LoadErr (List (Str × CT V)) :=
  let raw := loadRaw T specs (readCfg fs o.cfgfile) (o.patch.map PatchSrc.tree) o.kw
  let c := loadFilter own ownDflt o.cfgfilter raw
  if o.validate.truthy && !specs.isEmpty then validateMany specs c else .ok c

end Xoa
