import Verif.Misc

/-!
# Model of the arguments of `dict_merge`, xoa/misc.py:482-603

`dictMerge` (Misc.lean) models the merge of the items. Here: which arguments are merged, the class of the result and, for
`ConfigObj`, its comments. Class constructors: the classes of dictionaries give an empty dictionary; the other classes (lists,
tuples, numbers) give an object that does not accept `outd[key] = val` with a string key.
-/

namespace Xoa

/-- the class of an argument: `dict`, another dictionary class, `configobj.Section`, `configobj.ConfigObj`, or a list, tuple, number -/
inductive MCls
  | dict | sub (n : Nat) | section | config | other (n : Nat)
  deriving DecidableEq, Repr

/-- `isinstance(d, dict)` -/
def MCls.isDict : MCls → Bool
  | .other _ => false
  | _ => true

/-- an argument: its class, its items (if it is a dictionary), its truth value (if it is not) and its comments (`ConfigObj` has the
three kinds, `Section` only the inline ones) -/
structure MArg where
  cls : MCls
  items : PD := []
  truth : Bool := true
  initial : List String := []
  final : List String := []
  inline : PD := []

/-- `bool(d)` -/
def MArg.truthy (a : MArg) : Bool := if a.cls.isDict then !a.items.isEmpty else a.truth

inductive MergeErr | xoaError | typeError | unboundLocal
  deriving DecidableEq, Repr

/-- the result: its class, its items and its comments -/
structure MOut where
  cls : MCls
  items : PD
  initial : List String := []
  final : List String := []
  inline : PD := []

/-- the class of the result, xoa/misc.py:525-531: the first class that is not `dict` -/
def mergeCls (dd : List MArg) : MCls := ((dd.map (·.cls)).find? (fun c => c ≠ .dict)).getD .dict

/-- `hasattr(d, "inline_comments")` -/
def MArg.hasInline (a : MArg) : Bool := a.cls = .section || a.cls = .config

/-- the comments, xoa/misc.py:592-602: `d` is the last argument of the loop; the inline comments of a new `ConfigObj` are empty strings -/
def mergeComments (h : Heap) (items : PD) (d : MArg) : MOut :=
  let inl : PD := items.map (fun p => (p.1, .atom (.str "")))
  { cls := .config, items := items
    initial := if d.cls = .config then d.initial else []
    final := if d.cls = .config then d.final else []
    inline := if d.hasInline && !d.inline.isEmpty then (dictMerge { overwriteempty := true } h [inl, d.inline]).2 else inl }

/-- the result of the loop as an object of the class `c`, for the arguments `dd`, xoa/misc.py:536-603 -/
def mergeInto (o : MergeOpts) (h : Heap) (c : MCls) (dd : List MArg) : Except MergeErr (Heap × MOut) :=
  -- :536-541
  if c = .section ∧ !(dd.any (fun d => d.cls = .section || d.cls = .config)) then .error .xoaError
  else
    -- :555-590
    let r := dictMerge o h ((dd.filter (fun d => d.cls.isDict)).map (·.items))
    if c.isDict = false then
      -- the first item that is set raises TypeError
      if r.2 = [] then .ok (h, { cls := c, items := [] }) else .error .typeError
    else if c = .config then
      match dd.getLast? with
      | none => .error .unboundLocal
      | some d => .ok (r.1, mergeComments r.1 r.2 d)
    else .ok (r.1, { cls := c, items := r.2 })

/-- `dict_merge(*dd, cls=cls, **options)`, xoa/misc.py:482-603 -/
def dictMergeArgs (o : MergeOpts) (h : Heap) (cls : Option MCls) (dd : List MArg) : Except MergeErr (Heap × MOut) :=
  -- :521
  let dd := dd.filter (·.truthy)
  mergeInto o h (cls.getD (mergeCls dd)) dd

end Xoa
