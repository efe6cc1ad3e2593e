import Verif.Str

/-!
# Model of `xoa/misc.py`

Dictionaries are association lists in insertion order with distinct keys; `dict[k] = v`
replaces in place or appends (`setK`).  Python lists have an identity: they are addresses
in a heap, so that `+=` on a list shared by two dictionaries is visible from both.
Tuples, strings, numbers and generators are values.
-/

namespace Xoa

/-! ## Values -/

/-- numbers and strings -/
inductive Atom
  | int (i : Int)
  | str (s : String)
  deriving DecidableEq, Repr

/-- Python values handled by `dict_merge` -/
inductive PV
  | none
  | atom (a : Atom)
  | list (ref : Nat)
  | tuple (l : List Atom)
  | gen (l : List Atom)
  | dict (d : List (String × PV))

abbrev PD := List (String × PV)

/-- contents of the list objects -/
abbrev Heap := Nat → List Atom

def PV.isNone : PV → Bool
  | .none => true
  | _ => false

/-- `d.get(k)` -/
def lookupK {α : Type} (k : String) : List (String × α) → Option α
  | [] => Option.none
  | (k', v) :: r => if k = k' then some v else lookupK k r

/-- `d[k] = v` -/
def setK {α : Type} (k : String) (v : α) : List (String × α) → List (String × α)
  | [] => [(k, v)]
  | (k', v') :: r => if k = k' then (k, v) :: r else (k', v') :: setK k v r

/-- `d.pop(k)` -/
def popK {α : Type} (k : String) (d : List (String × α)) : List (String × α) :=
  d.filter (fun p => p.1 ≠ k)

/-! ## gunique -/

/-- loop of `gunique`, xoa/misc.py:691-714, with the set `seen` -/
def guniqueAux {α : Type} [DecidableEq α] : List α → List α → List α
  | _, [] => []
  | seen, x :: xs => if x ∈ seen then guniqueAux seen xs else x :: guniqueAux (seen ++ [x]) xs

/-- `gunique(seq)`, xoa/misc.py:691-714 (items are assumed hashable) -/
def gunique {α : Type} [DecidableEq α] (l : List α) : List α := guniqueAux [] l

/-! ## dict_merge -/

/-- keyword options of `dict_merge`, xoa/misc.py:482-484, with their defaults -/
structure MergeOpts where
  subdicts : Bool := true
  lists : Bool := false
  tuples : Bool := false
  uniquify : Bool := false
  skipnones : Bool := true
  overwriteempty : Bool := false

/-- `is_empty(x)`, xoa/misc.py:606-611 -/
def isEmptyPV (h : Heap) : PV → Bool
  | .none => true
  | .atom (.int i) => i = 0
  | .atom (.str s) => s.isEmpty
  | .list r => (h r).isEmpty
  | .tuple l => l.isEmpty
  | .gen _ => false
  | .dict d => d.isEmpty

/-- The items of a dictionary merged in an empty one: all of them but the `None`s when
`skipnones` (xoa/misc.py:559-565; keys are distinct so that no other branch is reached). -/
def initFrom (o : MergeOpts) (d : PD) : PD :=
  if o.skipnones then d.filter (fun p => !p.2.isNone) else d

mutual
/-- merge of `val` in the existing `outd[key] = w`, xoa/misc.py:566-590.
The inner `dict_merge(outd[key], val)` starts from an empty dictionary. -/
def mergeVal (o : MergeOpts) (h : Heap) (w : PV) : PV → Heap × PV
  | .dict b => match w with
    | .dict a =>
      if o.subdicts then
        let r := mergeItems o h (initFrom o a) b
        (r.1, .dict r.2)
      else (h, w)
    | _ => (h, w)
  | .list rb => match w with
    | .list ra =>
      if o.lists then
        -- outd[key] += val : in place
        let h' : Heap := fun r => if r = ra then h ra ++ h rb else h r
        -- outd[key] = gunique(list(outd[key])) : a generator
        if o.uniquify then (h', .gen (gunique (h' ra))) else (h', w)
      else (h, w)
    | _ => (h, w)
  | .tuple tb => match w with
    | .tuple ta =>
      if o.tuples then
        (h, .tuple (if o.uniquify then gunique (ta ++ tb) else ta ++ tb))
      else (h, w)
    | _ => (h, w)
  | _ => (h, w)

/-- `for key, val in d.items()`, xoa/misc.py:560-590 -/
def mergeItems (o : MergeOpts) (h : Heap) (out : PD) : List (String × PV) → Heap × PD
  | [] => (h, out)
  | kv :: rest =>
    let r := mergeItem o h out kv
    mergeItems o r.1 r.2 rest

/-- one item, xoa/misc.py:561-590 -/
def mergeItem (o : MergeOpts) (h : Heap) (out : PD) : String × PV → Heap × PD
  | (k, v) =>
    if o.skipnones && v.isNone then (h, out)
    else match lookupK k out with
      | Option.none => (h, setK k v out)
      | some w =>
        if o.overwriteempty && isEmptyPV h w then (h, setK k v out)
        else
          let r := mergeVal o h w v
          (r.1, setK k r.2 out)
end

/-- loop on the dictionaries, xoa/misc.py:555-590 -/
def mergeAll (o : MergeOpts) : Heap → PD → List PD → Heap × PD
  | h, out, [] => (h, out)
  | h, out, d :: ds =>
    let r := mergeItems o h out d
    mergeAll o r.1 r.2 ds

/-- `dict_merge(*dd, **options)`, xoa/misc.py:482-603, for plain dictionaries (`cls=dict`:
the ConfigObj/Section classes and their comments are not modelled). Returns the heap and
the merged dictionary. -/
def dictMerge (o : MergeOpts) (h : Heap) (dd : List PD) : Heap × PD := mergeAll o h [] dd

/-! ## dict_check_defaults -/

/-- `dict_check_defaults(dd, **defaults)`, xoa/misc.py:380-404: `setdefault` of each item -/
def dictCheckDefaults {α : Type} (dd : List (String × α)) (defaults : List (String × α)) : List (String × α) :=
  defaults.foldl (fun d kv => match lookupK kv.1 d with
    | some _ => d
    | Option.none => setK kv.1 kv.2 d) dd

/-! ## dict_filter -/

/-- A keyword value: a plain value or a dictionary -/
inductive KW (α : Type)
  | val (a : α)
  | sub (d : List (Str × α))

/-- association lists keyed by `Str` -/
def lookupS {α : Type} (k : Str) : List (Str × α) → Option α
  | [] => Option.none
  | (k', v) :: r => if k = k' then some v else lookupS k r

/-- `d[k] = v` -/
def setS {α : Type} (k : Str) (v : α) : List (Str × α) → List (Str × α)
  | [] => [(k, v)]
  | (k', v') :: r => if k = k' then (k, v) :: r else (k', v') :: setS k v r

/-- `d.update(e)` -/
def updateS {α : Type} (d e : List (Str × α)) : List (Str × α) := e.foldl (fun d p => setS p.1 p.2 d) d

/-- `d.pop(k)` -/
def popS {α : Type} (k : Str) (d : List (Str × α)) : List (Str × α) := d.filter (fun p => p.1 ≠ k)

/-- `str.endswith("_")` -/
def endsUnd (s : Str) : Bool := s.getLast? = some '_'

/-- The loop `for att, val in list(kwargs.items())`, xoa/misc.py:465-470, on the snapshot
`items`; `pre` is the prefix. Returns `(kwargs, kwout)`. -/
def filterItems {α : Type} (copy keep : Bool) (pre : Str) :
    List (Str × KW α) → List (Str × KW α) → List (Str × KW α) → List (Str × KW α) × List (Str × KW α)
  | [], kw, out => (kw, out)
  | (att, v) :: rest, kw, out =>
    if pre.isPrefixOf att && att ≠ pre then
      let key := if keep then att else att.drop pre.length
      filterItems copy keep pre rest (if copy then kw else popS att kw) (setS key v out)
    else filterItems copy keep pre rest kw out

/-- one filter, xoa/misc.py:457-470 -/
def filterOne {α : Type} (copy short keep : Bool) (f : Str)
    (st : List (Str × KW α) × List (Str × KW α)) : List (Str × KW α) × List (Str × KW α) :=
  let (kw, out) := st
  -- :458-462
  let (kw, out) := if !endsUnd f then
      match lookupS f kw with
      | some (.sub d) => (if copy then kw else popS f kw, updateS out (d.map (fun p => (p.1, KW.val p.2))))
      | some (.val a) => (if copy then kw else popS f kw, setS f (.val a) out)
      | Option.none => (kw, out)
    else (kw, out)
  -- :463-464
  let pre := if !short && !endsUnd f then f ++ ['_'] else f
  filterItems copy keep pre kw kw out

/-- `dict_filter(kwargs, filters, defaults, copy, short, keep, **kwadd)`, xoa/misc.py:407-479.
Returns `(kwargs after the call, kwout)`. -/
def dictFilter {α : Type} (kw : List (Str × KW α)) (filters : List Str) (defaults : List (Str × KW α))
    (copy short keep : Bool) (kwadd : List (Str × KW α)) : List (Str × KW α) × List (Str × KW α) :=
  let r := filters.foldl (fun st f => filterOne copy short keep f st) (kw, [])
  -- :473
  let out := updateS r.2 kwadd
  -- :476-478
  let out := defaults.foldl (fun d p => match lookupS p.1 d with
    | some _ => d
    | Option.none => setS p.1 p.2 d) out
  (r.1, out)

/-! ## ArgList, ArgTuple -/

/-- an argument: a list (resp. a tuple) or anything else -/
inductive Arg (α : Type)
  | single (a : α)
  | many (l : List α)

/-- `ArgList(argsi).get()`, xoa/misc.py:741-746 and `ArgTuple`, 781-786 -/
def argGet {α : Type} : Arg α → List α
  | .single a => [a]
  | .many l => l

/-- `ArgList(argsi).put(argso)`, xoa/misc.py:748-754 and `ArgTuple`, 788-794;
`none` is the `IndexError` of `argso[0]` -/
def argPut {α β : Type} (argsi : Arg α) (argso : Arg β) : Option (Arg β) :=
  match argso, argsi with
  | .single b, .single _ => some (.single b)
  | .many l, .many _ => some (.many l)
  | .single b, .many _ => some (.many [b])
  | .many [], .single _ => none
  | .many (b :: _), .single _ => some (.single b)

/-! ## get_axis_slices -/

/-- an item of an indexing tuple -/
inductive Sel
  | slice (start stop : Option Int)
  | idx (i : Int)
  deriving DecidableEq, Repr

/-- `sel[axis] = x` on a Python list: negative indices wrap, `IndexError` otherwise -/
def pySet {α : Type} (l : List α) (axis : Int) (x : α) : Option (List α) :=
  if 0 ≤ axis ∧ axis < l.length then some (l.set axis.toNat x)
  else if axis < 0 ∧ -(l.length : Int) ≤ axis then some (l.set (axis + l.length).toNat x)
  else none

/-- `get_axis_slices(ndim, axis)`, xoa/misc.py:267-355 (without extra keywords);
`none` is `IndexError`. The entries are looked up by name. -/
def axisSlices (ndim : Nat) (axis : Int) (name : String) : Option (List Sel) :=
  let sel := List.replicate ndim (Sel.slice none none)
  match name with
  | "all" => (pySet sel axis (Sel.slice none none)).map (fun _ => sel)
  | "mid" => pySet sel axis (.slice (some 1) (some (-1)))
  | "lasts" => pySet sel axis (.slice (some 1) none)
  | "firsts" => pySet sel axis (.slice (some 0) (some (-1)))
  | "lastsp1" => pySet sel axis (.slice (some 2) none)
  | "firstsm1" => pySet sel axis (.slice (some 0) (some (-2)))
  | "last" => pySet sel axis (.idx (-1))
  | "first" => pySet sel axis (.idx 0)
  | "lastm1" => pySet sel axis (.idx (-2))
  | "lastm2" => pySet sel axis (.idx (-3))
  | "firstp1" => pySet sel axis (.idx 1)
  | "firstp2" => pySet sel axis (.idx 2)
  | _ => none

/-- numpy/Python semantics of a basic index on an axis of length `n`: the selected
positions, `none` for an `IndexError` -/
def Sel.positions (n : Nat) : Sel → Option (List Nat)
  | .slice a b =>
    let clip (x : Int) : Nat := (max 0 (min (if x < 0 then x + n else x) n)).toNat
    let lo := match a with | some x => clip x | none => 0
    let hi := match b with | some x => clip x | none => n
    some (List.range' lo (hi - lo))
  | .idx i =>
    if 0 ≤ i ∧ i < n then some [i.toNat]
    else if i < 0 ∧ -(n : Int) ≤ i then some [(i + n).toNat]
    else none

/-! ## Choices and enumerations -/

/-- a choice value: a string or something else (represented by a number) -/
inductive Choice
  | str (s : Str)
  | other (n : Int)
  deriving DecidableEq, Repr

/-- `Choices._reformat_value_`, xoa/misc.py:206-209 -/
def reformat (ci : Bool) : Choice → Choice
  | .str s => if ci then .str (lower s) else .str s
  | .other n => .other n

/-- `Choices.__init__`, xoa/misc.py:186-200 (list of choices) -/
def mkChoices (ci : Bool) (l : List Choice) : List Choice := l.map (reformat ci)

/-- `Choices.__getitem__`, xoa/misc.py:211-217; `none` is an error (which one: `choicesItem`, C156) -/
def choicesGet (ci : Bool) (choices : List Choice) (c : Choice) : Option Choice :=
  let c := reformat ci c
  if c ∈ mkChoices ci choices then some c else none

/-- an `IntEnum` with the meta-class `DefaultEnumMeta`: declared names and numbers, in order.
A member is identified by its number; names with the same number are aliases. -/
abbrev EnumDecl := List (Str × Int)

/-- what a caller gives: `None`, a string or a number -/
inductive EArg
  | none
  | str (s : Str)
  | num (n : Int)

/-- `cls(value)`, xoa/misc.py:150-153 and `EnumMeta.__call__`: a string is not a value;
`none` is the `ValueError` -/
def enumCall (e : EnumDecl) : EArg → Option Int
  | .none => e.head?.map (·.2)
  | .str _ => Option.none
  | .num n => if n ∈ e.map (·.2) then some n else Option.none

/-- `cls[name]`, xoa/misc.py:155-160; `none` is the `KeyError`/`ValueError` -/
def enumGet (e : EnumDecl) : EArg → Option Int
  | .none => e.head?.map (·.2)
  | .str s => lookupS s e
  | .num n => enumCall e (.num n)

/-- `value in cls`, xoa/misc.py:70-73: `some b` is the answer, `none` an exception.
`None` and numbers go through `EnumMeta.__call__` and the truth value of the member. -/
def enumContains (e : EnumDecl) : EArg → Option Bool
  | .str s => some (s ∈ e.map (·.1))
  | .none => Option.none
  | .num n => (enumCall e (.num n)).map (fun m => m ≠ 0)

/-! ## match_string, match_attrs -/

/-- a check: a string, a callable or `None` -/
inductive Check
  | str (s : Str)
  | fn (f : Str → Bool)
  | none

/-- normalisation of a string, xoa/misc.py:644-646, 662-664 -/
def norm (ignorecase : Bool) (s : Str) : Str := if ignorecase then lower (strip s) else strip s

/-- loop on the checks, xoa/misc.py:652-659: the flag is the early `return True`,
the list the collected strings -/
def checkLoop (transform : Option (Str → Check)) (ss : Str) : List Check → List Str → Bool × List Str
  | [], sss => (false, sss)
  | c :: rest, sss =>
    let c := match transform, c with
      | some t, .str s => t s
      | _, c => c
    match c with
    | .fn f => if f ss then (true, sss) else checkLoop transform ss rest sss
    | .str s => checkLoop transform ss rest (sss ++ [s])
    | .none => checkLoop transform ss rest sss

/-- `match_string(ss, checks, ignorecase, transform)`, xoa/misc.py:614-665, for a list of
checks (`None` checks are removed first, :649; a single string or callable is a list of one) -/
def matchString (ignorecase : Bool) (transform : Option (Str → Check)) (ss : Str) (checks : List Check) : Bool :=
  if ss = [] ∨ checks = [] then false
  else
    let s := norm ignorecase ss
    let r := checkLoop transform s (checks.filter (fun c => match c with | .none => false | _ => true)) []
    r.1 || decide (s ∈ r.2.map (norm ignorecase))

/-- `match_attrs(obj, checks, ignorecase)`, xoa/misc.py:668-688; `attrs` are the string
attributes of the object -/
def matchAttrs (ignorecase : Bool) (attrs : List (Str × Str)) (checks : List (Str × List Check)) : Bool :=
  checks.any (fun c => match lookupS c.1 attrs with
    | some v => matchString ignorecase none v c.2
    | none => false)

end Xoa
