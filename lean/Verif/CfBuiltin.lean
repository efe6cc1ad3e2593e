import Verif.CfBuiltinRaw
import Verif.CfMatch

/-!
# Model of the loading of the built-in CF specifications (xoa/cf.cfg with xoa/cf.ini) and the form in which the matching
and formatting methods use them

The validation is the one of ConfigObj with the types `strings`, `string` and `option` of xoa/cfgm.py, on the values that the file has:
a text for `string` and `option`, a text or a list of texts for `strings`. The section `select` is empty in all
items of the file; the sections `sglocator` and `accessors`, which the file does not have, are left out.
-/

namespace Xoa

/-- the type `strings` (xoa/cfgm.py:111-125): a text is a list of one text -/
def asStrings : FV → FV
  | .str s => .list [s]
  | v => v

/-- one option of cf.ini: its name, whether its type is `strings`, and its default -/
structure IniOpt where
  key : Str
  many : Bool
  default : FV

/-- the value of an option that is in the file, checked -/
def IniOpt.check (o : IniOpt) (v : FV) : FV := if o.many then asStrings v else v

/-- the validation of the options of one section: checked values and, at the end, the defaults of those that are missing;
options without specification are left as they are -/
def iniFill (specs : List IniOpt) (sec : List (Str × FV)) : List (Str × FV) :=
  specs.foldl (fun d o => match lookupS o.key d with
    | some v => setS o.key (o.check v) d
    | none => setS o.key o.default d) sec

/-- `[data_vars] [[__many__]]`, xoa/cf.ini:14-21 -/
def iniVars : List IniOpt := [⟨kName, true, .list []⟩, ⟨"domain".toList, false, .str "generic".toList⟩, ⟨"cmap".toList, false, .none⟩,
  ⟨kInherit, false, .none⟩, ⟨"squeeze".toList, true, .none⟩, ⟨"search_order".toList, false, .str "sn".toList⟩]

/-- `[data_vars] [[__many__]] [[[attrs]]]`, xoa/cf.ini:23-26 -/
def iniVarAttrs : List IniOpt := [⟨kLong, true, .list []⟩, ⟨kStd, true, .list []⟩, ⟨"units".toList, true, .list []⟩]

/-- `[coords] [[__many__]]`, xoa/cf.ini:45-50 -/
def iniCoords : List IniOpt := [⟨kName, true, .list []⟩, ⟨"domain".toList, false, .str "generic".toList⟩, ⟨kInherit, false, .none⟩,
  ⟨"search_order".toList, false, .str "nsa".toList⟩]

/-- `[coords] [[__many__]] [[[attrs]]]`, xoa/cf.ini:52-56 -/
def iniCoordAttrs : List IniOpt := iniVarAttrs ++ [⟨kAxis, false, .none⟩]

/-- `[dims]`, xoa/cf.ini:65-70 -/
def iniDims : List IniOpt := ["x".toList, "y".toList, "z".toList, "t".toList, "f".toList].map fun k => ⟨k, true, .list []⟩

/-- one validated item -/
def iniItem (cat : Str) (keys attrs : List IniOpt) (i : RawItem) : CfKey × CfEntry :=
  ((cat, i.1), (iniFill keys i.2.1).map (fun p => (p.1, SV.flat p.2)) ++ [(kAttrs, .dict (iniFill attrs i.2.2))])

/-- the validated configuration: `cfgm.load(xoa/cf.cfg).dict()` -/
def builtinCfg : CfCfg where
  ents := rawVars.map (iniItem cVars iniVars iniVarAttrs) ++ rawCoords.map (iniItem cCoords iniCoords iniCoordAttrs)
  dims := (iniFill iniDims rawDims).map fun p => (p.1, match p.2 with | .list l => l | _ => [])

/-- the built-in specifications: `CFSpecs(...)` of the file alone (xoa/cf.py:761-786) -/
def builtinLoaded : Except CfErr CfCfg := postProcess 5 builtinCfg

/-! ## the specifications as the matching methods see them -/

/-- an attribute of the specifications -/
def refsOf : FV → Refs
  | .list l => .list l
  | .str s => .text s
  | .none => .none_
  | .other _ _ => .none_

/-- the value of a key of an item that is a list of texts -/
def listOf (e : CfEntry) (k : Str) : List Str :=
  match lookupS k e with
  | some (.flat (.list l)) => l
  | _ => []

/-- the value of a key of an item that is a text -/
def textOf (e : CfEntry) (k : Str) : Str :=
  match lookupS k e with
  | some (.flat (.str s)) => s
  | _ => []

/-- the section `attrs` of an item -/
def attrsOf (e : CfEntry) : List (Str × FV) :=
  match lookupS kAttrs e with
  | some (.dict a) => a
  | _ => []

/-- the specifications of an item used by `match`, `search` and the formatting methods (xoa/cf.py:1557-1574 and 1751-1803) -/
def specOfEntry (e : CfEntry) : CfSpec :=
  ⟨listOf e kName, (attrsOf e).map fun p => (p.1, refsOf p.2), textOf e "search_order".toList⟩

/-- the specifications of a category, `self._dict[category]` -/
def catOfEnts (cat : Str) (ents : CfEnts) : CfCat :=
  (ents.filter fun p => decide (p.1.1 = cat)).map fun p => (p.1.2, specOfEntry p.2)

/-- the specifications of a category after a load -/
def catLoaded (cat : Str) (c : Except CfErr CfCfg) : CfCat :=
  match c with
  | .ok c => catOfEnts cat c.ents
  | .error _ => []

/-- the dimensions after a load -/
def dimsLoaded (c : Except CfErr CfCfg) : CfDims :=
  match c with
  | .ok c => c.dims
  | .error _ => []

end Xoa
