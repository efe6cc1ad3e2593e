import Verif.Misc
import Verif.CfInherit

/-!
# Model of `CFSpecs.load_cfg` for several configurations (xoa/cf.py:589-759)

Contrary to `CfInherit`, the lists of the configurations have an identity (addresses in a heap, as in `Misc`): the
configurations read from files are kept in the memory cache of the session, and the merge and the inheritance extend lists in place.

Simplifications. A configuration is what `cfgm.load(cfg).dict()` gives (validated: all the sections and keys are there); the
files that are used are in the cache from the start, instead of being read at their first use. The mark `processed` is left out: nothing reads it.
A load that fails is an error, and what it has changed is left out.
-/

namespace Xoa

/-- `_CF_DICT_MERGE_KWARGS`, xoa/cf.py:54-62; `unique` is not the name of an option of `dict_merge` and has no effect -/
def cfMergeOpts : MergeOpts := { subdicts := true, lists := true, tuples := true, uniquify := false, skipnones := false, overwriteempty := true }

/-- category and name -/
abbrev HKey := String × String

/-- the entries of the two categories, in order -/
abbrev HEnts := List (HKey × PD)

/-- `self._dict[category][name]` -/
def lookupH (k : HKey) : HEnts → Option PD
  | [] => Option.none
  | (k', v) :: r => if k = k' then some v else lookupH k r

/-- `entries[name] = specs` -/
def setH (k : HKey) (v : PD) : HEnts → HEnts
  | [] => [(k, v)]
  | (k', v') :: r => if k = k' then (k, v) :: r else (k', v') :: setH k v r

/-- `d[k]`, a dictionary -/
def subK (k : String) (d : PD) : Except CfErr PD :=
  match lookupK k d with
  | some (.dict e) => .ok e
  | some _ => .error .typeError
  | Option.none => .error .keyError

/-- `d[k]` -/
def itemK (k : String) (d : PD) : Except CfErr PV :=
  match lookupK k d with
  | some v => .ok v
  | Option.none => .error .keyError

/-- text made of the first standard name or of the name, xoa/cf.py:821-825; `name.title()` is left out since `capitalize` sets the case again -/
def longText (h : Heap) (name : String) (sn : PV) : Except CfErr String :=
  if isEmptyPV h sn then .ok (String.ofList (capitalize (replaceC '_' ' ' name.toList)))
  else match sn with
    | .list r => match h r with
      | .str s :: _ => .ok (String.ofList (capitalize (replaceC '_' ' ' s.toList)))
      | _ => .error .attributeError
    | .atom (.str s) => .ok (String.ofList (capitalize (replaceC '_' ' ' (s.toList.take 1))))
    | _ => .error .typeError

/-- `l.append(x)`, in place -/
def appendTo (h : Heap) (r : Nat) (l : List Atom) : Heap := fun i => if i = r then h i ++ l else h i

/-- `specs["attrs"]["long_name"].append(long_name)`, xoa/cf.py:826 -/
def appendLong (h : Heap) (txt : String) : PV → Except CfErr Heap
  | .list r => .ok (appendTo h r [.str txt])
  | _ => .error .attributeError

/-- "Long name from name or standard_name", xoa/cf.py:819-826 -/
def prepH (h : Heap) (name : String) (e : PD) : Except CfErr Heap :=
  (subK "attrs" e).bind fun a => (itemK "long_name" a).bind fun ln =>
    if isEmptyPV h ln then
      (itemK "standard_name" a).bind fun sn => (longText h name sn).bind fun txt => appendLong h txt ln
    else .ok h

/-- `from_cat, from_name`, xoa/cf.py:832-836 -/
def parentOf (cat txt : String) : HKey :=
  (String.ofList (parseInherit cat.toList txt.toList).1, String.ofList (parseInherit cat.toList txt.toList).2)

/-- `"inherit" in specs and specs["inherit"]`, xoa/cf.py:829 -/
def inheritH (h : Heap) (e : PD) : Except CfErr (Option String) :=
  match lookupK "inherit" e with
  | Option.none => .ok Option.none
  | some v => if isEmptyPV h v then .ok Option.none else match v with
    | .atom (.str s) => .ok (some s)
    | _ => .error .typeError

/-- "Check compatibility of keys when not from same category", xoa/cf.py:853-857 -/
def dropH (cat fromCat : String) (e : PD) : PD :=
  if cat = fromCat then e
  else e.filter (fun p => !(decide (p.1.toList ∉ catKeys cat.toList) && decide (p.1.toList ∈ catKeys fromCat.toList)))

/-- the merge with the parent, xoa/cf.py:845-860: the lists of the child are extended in place, but its dictionary is a new one -/
def fromParent (k p : HKey) (h : Heap) (e pe : PD) : Heap × PD :=
  let m := dictMerge cfMergeOpts h [e, pe]
  (m.1, setK "inherit" .none (dropH k.1 p.1 m.2))

/-- `_process_entry_(category, name)`, xoa/cf.py:788-886: the lists and entries after it and the yielded items.
`fuel` is the recursion limit of the interpreter. -/
def processH : Nat → Heap → HEnts → HKey → Except CfErr (Heap × HEnts × HEnts)
  | 0, _, _, _ => .error .recursion
  | n + 1, h, D, k =>
    match lookupH k D with
    | Option.none => .error .keyError
    | some e =>
      (prepH h k.2 e).bind fun h1 =>
      (inheritH h1 e).bind fun t =>
      match t with
      | Option.none => .ok (h1, D, [(k, e)])
      | some txt =>
        if parentOf k.1 txt = k then .error .assertion
        else
          (processH n h1 D (parentOf k.1 txt)).bind fun r =>
          match lookupH (parentOf k.1 txt) r.2.1 with
          | Option.none => .error .keyError
          | some pe =>
            let m := fromParent k (parentOf k.1 txt) r.1 e pe
            .ok (m.1, setH k m.2 r.2.1, r.2.2 ++ [(k, m.2)])

/-- the loop on the names of a category, xoa/cf.py:769-774 -/
def processAllH (fuel : Nat) : Heap → HEnts → List HKey → Except CfErr (Heap × HEnts × HEnts)
  | h, D, [] => .ok (h, D, [])
  | h, D, k :: ks => (processH fuel h D k).bind fun r =>
      (processAllH fuel r.1 r.2.1 ks).bind fun r2 => .ok (r2.1, r2.2.1, r.2.2 ++ r2.2.2)

/-- the categories, xoa/cf.py:698-701 -/
def cfCats : List String := ["data_vars", "coords"]

/-- one entry of a category -/
def entItem (cat : String) : String × PV → Option (HKey × PD)
  | (n, .dict e) => some ((cat, n), e)
  | _ => Option.none

/-- the entries of a category -/
def entsOf (cat : String) (D : PD) : HEnts :=
  match lookupK cat D with
  | some (.dict s) => s.filterMap (entItem cat)
  | _ => []

/-- the names of a category, xoa/cf.py:1510-1512 -/
def namesH (cat : String) (D : HEnts) : List HKey := (D.map (·.1)).filter (fun k => k.1 = cat)

/-- `self._dict[category].clear()` and `.update(items[category])`, xoa/cf.py:776-779 -/
def refillH (cat : String) (items : HEnts) : PD :=
  (items.filter (fun p => p.1.1 = cat)).foldl (fun d p => setK p.1.2 (.dict p.2) d) []

/-- "Updates valid dimensions" for one coordinate, xoa/cf.py:781-786 -/
def addDimsH (dims : PD) (h : Heap) (name : String) (e : PD) : Except CfErr Heap :=
  (subK "attrs" e).bind fun a => (itemK "axis" a).bind fun ax =>
    if isEmptyPV h ax then .ok h else match ax with
      | .atom (.str s) => (itemK "name" e).bind fun l => match l with
        | .list r => (itemK (String.ofList (lower s.toList)) dims).bind fun d => match d with
          | .list rd => .ok (appendTo h rd (.str name :: h r))
          | _ => .error .attributeError
        | _ => .error .typeError
      | _ => .error .attributeError

/-- the loop on the coordinates, xoa/cf.py:781-786 -/
def allDimsH (dims : PD) : Heap → List (String × PV) → Except CfErr Heap
  | h, [] => .ok h
  | h, (n, .dict e) :: l => (addDimsH dims h n e).bind fun h1 => allDimsH dims h1 l
  | _, _ :: _ => .error .typeError

/-- `_post_process_`, xoa/cf.py:761-786 -/
def postH (fuel : Nat) (h : Heap) (D : PD) : Except CfErr (Heap × PD) :=
  (processAllH fuel h (entsOf "data_vars" D ++ entsOf "coords" D) (namesH "data_vars" (entsOf "data_vars" D))).bind fun r1 =>
  (processAllH fuel r1.1 r1.2.1 (namesH "coords" r1.2.1)).bind fun r2 =>
  (subK "dims" D).bind fun dims =>
  (allDimsH dims r2.1 (refillH "coords" (r1.2.2 ++ r2.2.2))).bind fun h' =>
  .ok (h', setK "coords" (.dict (refillH "coords" (r1.2.2 ++ r2.2.2))) (setK "data_vars" (.dict (refillH "data_vars" (r1.2.2 ++ r2.2.2))) D))

/-- the state of a session: the lists, and `_CACHE["cfgs"]` -/
structure CfSess where
  heap : Heap
  cache : List (String × PD)

/-- a configuration: the name of a file, whose content is cached, or a dictionary or a text, which are not (xoa/cf.py:600-604) -/
inductive CfSrc
  | file (name : String)
  | dict (d : PD)

/-- `_load_cfg_as_dict_(cfg)`, xoa/cf.py:589-634 -/
def srcDict (st : CfSess) : CfSrc → Except CfErr PD
  | .file k => itemD k st.cache
  | .dict d => .ok d
where
  itemD (k : String) (c : List (String × PD)) : Except CfErr PD :=
    match lookupK k c with
    | some d => .ok d
    | Option.none => .error .keyError

/-- the list of the dictionaries to merge, xoa/cf.py:670-671 -/
def srcDicts (st : CfSess) : List CfSrc → Except CfErr (List PD)
  | [] => .ok []
  | s :: l => (srcDict st s).bind fun d => (srcDicts st l).bind fun dd => .ok (d :: dd)

/-- when the dictionaries of all the others have an empty section, the section of the merged dictionary is that of
the last one itself (xoa/misc.py:563-565, `overwriteempty`), which `_post_process_` changes in place (xoa/cf.py:776-779) -/
def sharesSection (cat : String) (dd : List PD) : Bool :=
  dd.dropLast.all (fun d => match lookupK cat d with | some (.dict s) => s.isEmpty | some _ => false | Option.none => true)

/-- one section of the cached dictionary after the load -/
def shareSection (dd : List PD) (D : PD) (cat : String) (d : PD) : PD :=
  if sharesSection cat dd then (lookupK cat D).elim d (fun s => setK cat s d) else d

/-- the cached dictionary of the last file after the load -/
def shareBack (dd : List PD) (D : PD) (cache : List (String × PD)) : Option CfSrc → List (String × PD)
  | some (.file k) => (lookupK k cache).elim cache (fun d => setK k (shareSection dd D "coords" (shareSection dd D "data_vars" d)) cache)
  | _ => cache

/-- `load_cfg(cfg)`, xoa/cf.py:636-681, where `srcs` is the list `to_load` -/
def loadSpecs (fuel : Nat) (st : CfSess) (srcs : List CfSrc) : Except CfErr (CfSess × PD) :=
  (srcDicts st srcs).bind fun dd =>
  (postH fuel (dictMerge cfMergeOpts st.heap dd).1 (dictMerge cfMergeOpts st.heap dd).2).bind fun r =>
  .ok (⟨r.1, shareBack dd r.2 st.cache srcs.getLast?⟩, r.2)

/-- a `CFSpecs` object: the files that it always loads (user file, then default one, xoa/cf.py:663-666) and its dictionary -/
structure CfObj where
  files : List String
  dict : PD

/-- `CFSpecs(cfg)`, xoa/cf.py:573-587 -/
def newSpecs (fuel : Nat) (st : CfSess) (cfgs : List CfSrc) (files : List String) : Except CfErr (CfSess × CfObj) :=
  (loadSpecs fuel st (cfgs ++ files.map CfSrc.file)).map fun r => (r.1, ⟨files, r.2⟩)

/-- `set_specs(category, name, **specs)` and `set_specs_from_cfg(cfg)`, xoa/cf.py:752-759 and 1546-1555, where `d` is the
configuration `{category: {name: specs}}` -/
def setSpecs (fuel : Nat) (st : CfSess) (o : CfObj) (d : PD) : Except CfErr (CfSess × CfObj) :=
  (loadSpecs fuel st (.dict d :: o.files.map CfSrc.file)).map fun r => (r.1, ⟨o.files, r.2⟩)

/-- `cfspecs[category][name]` -/
def CfObj.entry (o : CfObj) (cat name : String) : Option PD := lookupH (cat, name) (entsOf cat o.dict)

/-- `cfspecs[category][name]["name"]` -/
def CfObj.names (st : CfSess) (o : CfObj) (cat name : String) : Option (List Atom) :=
  (o.entry cat name).bind fun e => (lookupK "name" e).bind fun v => match v with | .list r => some (st.heap r) | _ => Option.none

end Xoa
