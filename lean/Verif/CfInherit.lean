import Verif.SGLoc

/-!
# Model of the loading of CF specifications (xoa/cf.py, `CFSpecs.load_cfg` and following)

The dictionary of specifications is a list of entries keyed by `(category, name)`. The lists are
values: `dict_merge` extends the list of the child in place (`+=`), but the child's entry is replaced
by the result of the merge at once, and an entry is never extended again once it is processed, so
that the sharing of the parent's lists by its children is not observable within one load. The sharing
between loads is the subject of the second part (`loadDefault`, `reload`).
-/

namespace Xoa

/-- values of the configuration after validation (xoa/cf.ini): `None`, a string, a list of strings,
or something else (for instance a boolean or a value of `select`) which is true or false -/
inductive FV
  | none
  | str (s : Str)
  | list (l : List Str)
  | other (truthy : Bool) (id : Nat)
  deriving DecidableEq, Repr

/-- the value of a key of an entry: a value or a dictionary (`attrs`, `select`) -/
inductive SV
  | flat (v : FV)
  | dict (d : List (Str × FV))
  deriving DecidableEq, Repr

/-- the specifications of one name -/
abbrev CfEntry := List (Str × SV)

/-- category (`data_vars` or `coords`) and name -/
abbrev CfKey := Str × Str

/-- `not is_empty(x)`, xoa/misc.py:606-611 -/
def FV.truthy : FV → Bool
  | .none => false
  | .str s => !s.isEmpty
  | .list l => !l.isEmpty
  | .other t _ => t

/-- `not is_empty(x)`, xoa/misc.py:606-611 -/
def SV.truthy : SV → Bool
  | .flat v => v.truthy
  | .dict d => !d.isEmpty

/-- merge of the value `v` of the parent in the value `w` of the child (xoa/misc.py:563-590) with
`mergelists=True, overwriteempty=True, skipnones=False`; `uniquify` keeps its default `False` since
the options (xoa/cf.py:54-62) name it `unique` -/
def mergeFV (w v : FV) : FV :=
  if w.truthy = false then v else match w, v with
    | .list a, .list b => .list (a ++ b)
    | w, _ => w

/-- one item of the parent's dictionary, xoa/misc.py:560-590 -/
def mergeItemF (out : List (Str × FV)) (kv : Str × FV) : List (Str × FV) :=
  match lookupS kv.1 out with
  | Option.none => setS kv.1 kv.2 out
  | some w => setS kv.1 (mergeFV w kv.2) out

/-- `dict_merge(a, b)` for dictionaries of values, xoa/misc.py:555-590 -/
def mergeF (a b : List (Str × FV)) : List (Str × FV) := b.foldl mergeItemF a

/-- the same with subdictionaries (`mergesubdicts=True`), xoa/misc.py:563-590 -/
def mergeSV (w v : SV) : SV :=
  if w.truthy = false then v else match w, v with
    | .dict a, .dict b => .dict (mergeF a b)
    | .flat a, .flat b => .flat (mergeFV a b)
    | w, _ => w

/-- one item of the parent's entry, xoa/misc.py:560-590 -/
def mergeItemS (out : CfEntry) (kv : Str × SV) : CfEntry :=
  match lookupS kv.1 out with
  | Option.none => setS kv.1 kv.2 out
  | some w => setS kv.1 (mergeSV w kv.2) out

/-- `dict_merge(specs, parent, cls=dict, **_CF_DICT_MERGE_KWARGS)`, xoa/cf.py:845-850 -/
def mergeEntry (a b : CfEntry) : CfEntry := b.foldl mergeItemS a

inductive CfErr
  | keyError
  | typeError
  | attributeError
  | assertion       -- "Cannot inherit cf specs from it self"
  | recursion       -- RecursionError
  deriving DecidableEq, Repr

def kAttrs : Str := "attrs".toList
def kLong : Str := "long_name".toList
def kStd : Str := "standard_name".toList
def kInherit : Str := "inherit".toList
def kProcessed : Str := "processed".toList
def kName : Str := "name".toList
def kAxis : Str := "axis".toList
def cVars : Str := "data_vars".toList
def cCoords : Str := "coords".toList

/-- `d[k]` -/
def pyItem {α : Type} (k : Str) (d : List (Str × α)) : Except CfErr α :=
  match lookupS k d with
  | Option.none => .error .keyError
  | some v => .ok v

/-- `specs["attrs"]` used as a dictionary -/
def pyAttrs (e : CfEntry) : Except CfErr (List (Str × FV)) :=
  (pyItem kAttrs e).bind fun v => match v with
    | .dict a => .ok a
    | .flat _ => .error .typeError

/-- the text from which the long name is made, xoa/cf.py:821-824. `name.title()` only changes the
case, which `capitalize` sets again: it is left out. -/
def longNameSource (name : Str) (sn : FV) : Except CfErr Str :=
  if sn.truthy = false then .ok name else match sn with
    | .list (s :: _) => .ok s
    | .str (c :: _) => .ok [c]
    | _ => .error .typeError

/-- "Long name from name or standard_name", xoa/cf.py:819-826: fills an empty list of long names -/
def prepEntry (name : Str) (e : CfEntry) : Except CfErr CfEntry :=
  (pyAttrs e).bind fun a => (pyItem kLong a).bind fun ln =>
    if ln.truthy then .ok e
    else (pyItem kStd a).bind fun sn => (longNameSource name sn).bind fun src =>
      match ln with
      | .list l => .ok (setS kAttrs (.dict (setS kLong (.list (l ++ [capitalize (replaceC '_' ' ' src)])) a)) e)
      | _ => .error .attributeError

/-- `from_cat, from_name`, xoa/cf.py:832-836: `split(":")[:2]` -/
def parseInherit (cat txt : Str) : CfKey :=
  if ':' ∈ txt then (txt.takeWhile (· ≠ ':'), ((txt.dropWhile (· ≠ ':')).drop 1).takeWhile (· ≠ ':'))
  else (cat, txt)

/-- `"inherit" in specs and specs["inherit"]`, xoa/cf.py:829, and its text -/
def inheritText (e : CfEntry) : Except CfErr (Option Str) :=
  match lookupS kInherit e with
  | Option.none => .ok Option.none
  | some v => if v.truthy = false then .ok Option.none else match v with
    | .flat (.str s) => .ok (some s)
    | _ => .error .typeError

/-- the keys of a category in the specifications of the configuration, xoa/cf.ini:14-32 and 46-59 -/
def catKeys (cat : Str) : List Str :=
  if cat = cVars then ["name", "domain", "cmap", "inherit", "squeeze", "search_order", "attrs", "select"].map String.toList
  else if cat = cCoords then ["name", "domain", "inherit", "search_order", "attrs"].map String.toList
  else []

/-- "Check compatibility of keys when not from same category", xoa/cf.py:853-857 -/
def dropKeys (cat fromCat : Str) (e : CfEntry) : CfEntry :=
  if cat = fromCat then e else e.filter (fun p => !(decide (p.1 ∉ catKeys cat) && decide (p.1 ∈ catKeys fromCat)))

/-- the entries, in order -/
abbrev CfEnts := List (CfKey × CfEntry)

def lookupE (k : CfKey) : CfEnts → Option CfEntry
  | [] => Option.none
  | (k', v) :: r => if k = k' then some v else lookupE k r

def setE (k : CfKey) (v : CfEntry) : CfEnts → CfEnts
  | [] => [(k, v)]
  | (k', v') :: r => if k = k' then (k, v) :: r else (k', v') :: setE k v r

/-- the merged child, xoa/cf.py:845-860 -/
def inheritFrom (k p : CfKey) (e pe : CfEntry) : CfEntry :=
  setS kInherit (.flat .none) (dropKeys k.1 p.1 (mergeEntry e pe))

/-- `specs['processed'] = True`, xoa/cf.py:885 -/
def markDone (e : CfEntry) : CfEntry := setS kProcessed (.flat (.other true 1)) e

/-- `_process_entry_(category, name)`, xoa/cf.py:788-886: the entries after it and the yielded items.
The evaluation of `select` (868-873) has no effect: `eval` of a dictionary always fails. `fuel` is the
recursion limit of the interpreter. A parent category that is not one of the two is a `KeyError`. -/
def processEntry : Nat → CfEnts → CfKey → Except CfErr (CfEnts × CfEnts)
  | 0, _, _ => .error .recursion
  | n + 1, D, k =>
    match lookupE k D with
    | Option.none => .error .keyError
    | some e0 =>
      (prepEntry k.2 e0).bind fun e =>
      (inheritText e).bind fun t =>
      match t with
      | Option.none => .ok (setE k (markDone e) (setE k e D), [(k, markDone e)])
      | some txt =>
        if parseInherit k.1 txt = k then .error .assertion
        else
          (processEntry n (setE k e D) (parseInherit k.1 txt)).bind fun r =>
          match lookupE (parseInherit k.1 txt) r.1 with
          | Option.none => .error .keyError
          | some pe =>
            let m := markDone (inheritFrom k (parseInherit k.1 txt) e pe)
            .ok (setE k m r.1, r.2 ++ [(k, m)])

/-- the names of a category, xoa/cf.py:1510-1512 -/
def keysOf (cat : Str) (D : CfEnts) : List CfKey := (D.map (·.1)).filter (fun k => k.1 = cat)

/-- the loop of `_post_process_`, xoa/cf.py:769-774 -/
def processAll (fuel : Nat) : CfEnts → List CfKey → Except CfErr (CfEnts × CfEnts)
  | D, [] => .ok (D, [])
  | D, k :: ks => (processEntry fuel D k).bind fun r =>
      (processAll fuel r.1 ks).bind fun r2 => .ok (r2.1, r.2 ++ r2.2)

/-- `self._dict[category].update(items[category])` on a cleared dictionary, xoa/cf.py:777-779 -/
def refill (items : CfEnts) : CfEnts := items.foldl (fun d p => setE p.1 p.2 d) []

/-- the lists of dimensions of each type -/
abbrev CfDims := List (Str × List Str)

/-- the dimensions of one coordinate, xoa/cf.py:782-786 -/
def addDims (name : Str) (e : CfEntry) (dims : CfDims) : Except CfErr CfDims :=
  (pyAttrs e).bind fun a => (pyItem kAxis a).bind fun ax =>
    if ax.truthy = false then .ok dims
    else match ax with
      | .str s => (pyItem kName e).bind fun nm => match nm with
        | .flat (.list l) => (pyItem (lower s) dims).bind fun old => .ok (setS (lower s) (old ++ (name :: l)) dims)
        | _ => .error .typeError
      | _ => .error .attributeError

/-- "Updates valid dimensions", xoa/cf.py:782-786 -/
def updateDims : List (CfKey × CfEntry) → CfDims → Except CfErr CfDims
  | [], dims => .ok dims
  | (k, e) :: r, dims => if k.1 = cCoords then (addDims k.2 e dims).bind fun d => updateDims r d else updateDims r dims

/-- the part of `self._dict` that `_post_process_` changes -/
structure CfCfg where
  ents : CfEnts
  dims : CfDims
  deriving DecidableEq, Repr

/-- `_post_process_`, xoa/cf.py:761-786 -/
def postProcess (fuel : Nat) (c : CfCfg) : Except CfErr CfCfg :=
  (processAll fuel c.ents (keysOf cVars c.ents)).bind fun r1 =>
  (processAll fuel r1.1 (keysOf cCoords r1.1)).bind fun r2 =>
  let ents := refill ((r1.2 ++ r2.2).filter (fun p => p.1.1 = cVars)) ++ refill ((r1.2 ++ r2.2).filter (fun p => p.1.1 = cCoords))
  (updateDims ents c.dims).bind fun dims => .ok { ents := ents, dims := dims }

/-! ## Loading several times -/

/-- one `load_cfg()` of the default configuration alone, xoa/cf.py:640-681, when `cached` is the
dictionary in the memory cache: `_load_cfg_as_dict_` returns the cached dictionary itself (612-613)
and `dict_merge` of a single dictionary makes a new top dictionary whose values are the same objects
(misc.py:563-565). `_post_process_` then changes these objects in place (777-786): the entries and the
lists of dimensions of the cache are those of the specifications. Returns the specifications, which are
also the contents of the cache. -/
def loadDefault (fuel : Nat) (cached : CfCfg) : Except CfErr CfCfg := postProcess fuel cached

/-- `n` successive loads in the same session -/
def reload (fuel : Nat) : Nat → CfCfg → Except CfErr CfCfg
  | 0, c => .ok c
  | n + 1, c => (loadDefault fuel c).bind (reload fuel n)

/-- `specs.copy()`, xoa/cf.py:683-687: a new object that loads the dictionary `c` of the first one, alone; the dictionary is validated again, which
makes new lists (xoa/cf.py:628-631), so that the first object is not changed -/
def copySpecs (fuel : Nat) (c : CfCfg) : Except CfErr CfCfg := postProcess fuel c

/-- the cache lookup of `_load_cfg_as_dict_` with a pair `(cache_key, cfg)`, xoa/cf.py:600-634: the test
uses the key (611) but the item that is returned is that of `cfg` (613) -/
def loadPair {α : Type} (parse : Str → α) (cache : List (Str × α)) (key cfg : Str) : Except CfErr (α × List (Str × α)) :=
  if (lookupS key cache).isSome then (pyItem cfg cache).bind fun d => .ok (d, cache)
  else .ok (parse cfg, setS key (parse cfg) cache)

end Xoa
