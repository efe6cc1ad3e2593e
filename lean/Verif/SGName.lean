import Verif.SGLoc

/-!
# Model of any name format of SGLocator (xoa/cf.py:79-90, 124-151)

`SGLoc.lean` only has formats with the root before the location and with literal fixed parts. Here the location can come first, and the
fixed parts are used as they are in the regular expression: a dot stands for any character but the newline. The other special characters
of regular expressions and the braces are not modelled (`plainRe`).
-/

namespace Xoa

/-- the two fields of a format -/
def rootField : Str := "{root}".toList
def locField : Str := "{loc}".toList

/-- a name format with one root and one location -/
structure NFormat where
  rootFirst : Bool := true
  pre : Str := []
  sep : Str := []
  post : Str := []
  deriving DecidableEq, Repr

/-- the text of the format -/
def NFormat.text (f : NFormat) : Str :=
  if f.rootFirst then f.pre ++ rootField ++ f.sep ++ locField ++ f.post else f.pre ++ locField ++ f.sep ++ rootField ++ f.post

/-- the checks of `SGLocator.__init__` on the argument `name_format`, xoa/cf.py:132-141: an error, or whether a warning is emitted -/
def checkNameFormat (nf : Option Str) : Except SGErr Bool :=
  match nf with
  | none => .ok false
  | some s =>
    if s = [] then .ok false
    else if ¬ rootField <:+: s ∨ ¬ locField <:+: s then .error .invalidLocation  -- `XoaCFError`
    else .ok (s.length = 10)

/-- characters that have no special meaning in a regular expression nor in a format -/
def plainRe (c : Char) : Bool := c ∉ ".^$*+?[]\\|(){}".toList

/-- the fixed part `lit` of the expression at the beginning of a string, with `re.I` -/
def reFix : Str → Str → Bool
  | [], _ => true
  | _ :: _, [] => false
  | c :: lit, x :: s => (if c = '.' then decide (x ≠ '\n') else decide (x.toLower = c.toLower)) && reFix lit s

/-- the lengths of the location that are tried at the beginning of a string, in order: greedy `[a-z]+`, or the alternation of the valid locations -/
def locLens (valid : List Str) (s : Str) : List Nat :=
  if valid = [] then desc (spanLen Char.isAlpha s) else (valid.filter (fun l => litMatch l s)).map (·.length)

/-- `self.re_match["name"](value)`, xoa/cf.py:79-90, for any format: the root and the location -/
def parseNF (f : NFormat) (valid : List Str) (value : Str) : Option (Str × Str) :=
  if reFix f.pre value then
    let s := value.drop f.pre.length
    if f.rootFirst then
      (desc (spanLen isWord s)).findSome? (fun n =>
        if reFix f.sep (s.drop n) then
          let r := s.drop (n + f.sep.length)
          (locLens valid r).findSome? (fun m => if reFix f.post (r.drop m) then some (s.take n, r.take m) else none)
        else none)
    else
      (locLens valid s).findSome? (fun m =>
        if reFix f.sep (s.drop m) then
          let r := s.drop (m + f.sep.length)
          (desc (spanLen isWord r)).findSome? (fun n => if reFix f.post (r.drop n) then some (r.take n, s.take m) else none)
        else none)
  else none

/-- `SGLocator.parse_attr("name", value)`, xoa/cf.py:153-188 -/
def parseName (f : NFormat) (valid : List Str) (value : Str) : Str × Option Str :=
  match parseNF f valid value with
  | none => (value, none)
  | some (root, loc) => (root, some (lower loc))

/-- `self.formats["name"].format(root=root, loc=loc)` -/
def fmtName (f : NFormat) (root loc : Str) : Str :=
  if f.rootFirst then f.pre ++ root ++ f.sep ++ loc ++ f.post else f.pre ++ loc ++ f.sep ++ root ++ f.post

/-- `SGLocator.format_attr("name", value, None)`, xoa/cf.py:274-339: the location is kept -/
def keepName (f : NFormat) (valid : List Str) (value : Str) : Str :=
  let r := parseName f valid value
  let root := replaceC ' ' '_' r.1
  match r.2 with
  | none => root
  | some l => if l = [] then root else fmtName f root l

end Xoa
