import Verif.CfgmTools
import Verif.Validators

/-!
# Model of the help of the command line options (xoa/cfgm.py)

`_shelp_` and `_sdefault_` (help text of one option), the declarations of `arg_parse` that `ArgParse.lean` leaves out (extra options,
titles of the groups, validator of the options out of the sections), `opt2rst`, `arg_long_help`.
-/

namespace Xoa

/-! ## Help text of one option -/

/-- the comments of an option: `sec.comments[key]`, lines above it, and `sec.inline_comments[key]` -/
structure OptCom where
  above : List (Option Str)
  inline : Option Str

/-- the argument `mode` of `_shelp_` -/
inductive HelpMode
  | auto | merge | above | inline
  deriving DecidableEq, Repr

/-- `c.strip("#")` -/
def stripHash (s : Str) : Str := ((s.dropWhile (· = '#')).reverse.dropWhile (· = '#')).reverse

/-- `strip(c)`, xoa/cfgm.py:1856-1857 -/
def comStrip (s : Str) : Str := strip (stripHash (strip s))

/-- the comments in use, xoa/cfgm.py:1859-1876 -/
def helpComments (m : HelpMode) (c : OptCom) : List Str :=
  let ab := (c.above.filterMap id).map comStrip
  let inl := c.inline.toList.map comStrip
  match m with
  | .merge => ab ++ inl
  | .auto => if inl.isEmpty then ab else inl
  | .above => ab
  | .inline => inl

/-- `c.endswith(".") and c or f"{c}."`, xoa/cfgm.py:1880 -/
def withDot (s : Str) : Str := if s.getLast? = some '.' then s else s ++ ['.']

/-- `sep.join(l)` -/
def joinLines (sep : Str) : List Str → Str
  | [] => []
  | [s] => s
  | s :: t :: l => s ++ sep ++ joinLines sep (t :: l)

/-- the comments as one text, xoa/cfgm.py:1878-1885 (`adddot=True`) -/
def helpBody (l : List Str) : Str :=
  let s := joinLines ['\n'] (l.map withDot)
  if s.isEmpty then "Undocumented".toList else s

/-- the value of the option in the default configuration: the texts of the items of a list or a tuple, or the text of another value
(`"None"` when there is none) -/
inductive DfltVal
  | items (l : List Str)
  | text (s : Str)

/-- `s.replace("%", "%%")` -/
def pctEscape : Str → Str
  | [] => []
  | c :: s => if c = '%' then '%' :: '%' :: pctEscape s else c :: pctEscape s

/-- `s.strip("()")` -/
def stripParens (s : Str) : Str :=
  ((s.dropWhile fun c => c = '(' || c = ')').reverse.dropWhile fun c => c = '(' || c = ')').reverse

/-- `_sdefault_(sec, key)`, xoa/cfgm.py:1889-1899, as it is written in a text: `None` is written "None" -/
def sdefault : DfltVal → Str
  | .items l => pctEscape (joinLines [','] l)
  | .text s => pctEscape (stripParens s)

/-- `_shelp_(sec, key, mode=mode)`, xoa/cfgm.py:1835-1886 -/
def shelp (m : HelpMode) (c : OptCom) (d : DfltVal) : Str :=
  helpBody (helpComments m c) ++ " [default: ".toList ++ sdefault d ++ "]".toList

/-- what `argparse` prints for a help text: `help % params`. `none` when there is something else than `%%` after a percent sign: a
parameter of the option is inserted, or an exception is raised. -/
def pctExpand : Str → Option Str
  | [] => some []
  | c :: s =>
    if c = '%' then
      match s with
      | d :: s' => if d = '%' then (pctExpand s').map ('%' :: ·) else none
      | [] => none
    else (pctExpand s).map (c :: ·)

/-! ## Declarations of `arg_parse` -/

/-- an item of `extraopts` -/
inductive ExtraOpt (A K : Type)
  | one (a : A)              -- a sequence of one item
  | dict (k : K)             -- a dictionary of one item
  | pair (a : List A) (k : K)  -- `(args, kwargs)`

/-- the arguments of `add_argument` for an extra option, xoa/cfgm.py:1178-1187 -/
def ExtraOpt.call {A K : Type} (noKw : K) : ExtraOpt A K → List A × K
  | .one a => ([a], noKw)
  | .dict k => ([], k)
  | .pair a k => (a, k)

/-- the calls of `add_argument` for the extra options, xoa/cfgm.py:1176-1188: the call is after the loop, that only keeps the arguments -/
def extraCalls {A K : Type} (noKw : K) (ex : List (ExtraOpt A K)) : List (List A × K) :=
  match ex.getLast? with
  | none => []
  | some e => [e.call noKw]

/-- `s.strip("# ")` -/
def stripHashBlank (s : Str) : Str :=
  ((s.dropWhile fun c => c = '#' || c = ' ').reverse.dropWhile fun c => c = '#' || c = ' ').reverse

/-- `s.split(":", 1)` -/
def splitColon (s : Str) : List Str :=
  if s.contains ':' then [s.takeWhile (· ≠ ':'), (s.dropWhile (· ≠ ':')).drop 1] else [s]

/-- title and description of the group of the options out of the sections, xoa/cfgm.py:1210-1231, where `coding` is the regular expression of
a line `# -*- coding: ... -*-`; `none`: `UnboundLocalError` -/
def globalDesc (coding : Str → Bool) (initial : List Str) : Option (List Str) :=
  match initial with
  | [] => some ["global configuration options".toList]
  | c :: rest =>
    if coding c then
      match rest with
      | [] => none
      | d :: _ => some (splitColon (stripHashBlank d))
    else some ["global configuration options".toList]

/-- title and description of the group of a section, xoa/cfgm.py:1247-1254 -/
def sectionDesc (key : Str) (comment : Option Str) : List Str :=
  match comment with
  | none => [key]
  | some c =>
    if (stripHashBlank c).contains ':' then splitColon (stripHashBlank c) else [lower key, stripHashBlank c]

/-- a validator: the functions that it knows, `none` when they refuse the text. Its `check` of a type that it does not know raises an error. -/
abbrev Vtor (V : Type) := List (Str × (Str → Option V))

/-- `get_validator(functions)`, xoa/cfgm.py:1700-1717: the functions of the package, replaced or completed by the given ones -/
def getValidator {V : Type} (pkg functions : Vtor V) : Vtor V := functions ++ pkg

/-- `validator.check(type, text)` -/
def Vtor.check {V : Type} (v : Vtor V) (ty text : Str) : Option V := (lookupS ty v).bind fun f => f text

/-- the check of the text of an option on the command line, xoa/cfgm.py:1232-1265 and 1777-1818: the options of the sections use the validator of
the manager, the others a new one -/
def commandCheck {V : Type} (pkg functions : Vtor V) (path : List Str) (ty text : Str) : Option V :=
  (if path = [] then getValidator pkg [] else getValidator pkg functions).check ty text

/-! ## `opt2rst` -/

/-- `^(?:  )?([\w\s]+):(?: (.+))?$`, xoa/cfgm.py:1538, for one line: what is before the first colon, and what is after it -/
def reSec (line : Str) : Option (Str × Option Str) :=
  let w := line.takeWhile (· ≠ ':')
  let r := line.dropWhile (· ≠ ':')
  if w.isEmpty || !w.all (fun c => isWord c || isSpace c) then none
  else
    let g := if "  ".toList.isPrefixOf w && decide (2 < w.length) then w.drop 2 else w
    match r with
    | [_] => some (g, none)
    | _ :: ' ' :: c :: r' => some (g, some (c :: r'))
    | _ => none

/-- `str.title` -/
def titleFrom (up : Bool) : Str → Str
  | [] => []
  | c :: s => if c.isAlpha then (if up then c.toUpper else c.toLower) :: titleFrom false s else c :: titleFrom true s

/-- is the line the header of a section: `m and not line.lower().endswith("ex:")`, xoa/cfgm.py:1543-1544 -/
def secOf (line : Str) : Option (Str × Option Str) :=
  if "ex:".toList.isSuffixOf (lower line) then none else reSec line

/-- the state of the loop -/
structure RstSt where
  multi : Bool
  sec : Option Str
  prog : Option Str

/-- `secfmt.format(locals())`: `none` for a format with a named field, such as the default one: the dictionary is given as a positional
argument, so that a `KeyError` is raised -/
abbrev SecFmt := Option (Str → Str)

inductive RstErr
  | keyError | indexError | typeError
  deriving DecidableEq, Repr

/-- parameters: `secfmt`, `descname`, the regular expression of the options, `os.path.basename` -/
structure RstArgs where
  secfmt : SecFmt
  descname : Str
  reOpt : Str → Option (Str × Option Str)
  basename : Str → Str

/-- a formatted section name -/
def fmtSec (a : RstArgs) (sec : Str) : Except RstErr Str :=
  match a.secfmt with
  | none => .error .keyError
  | some f => .ok (f sec)

/-- the name of the program: given, or the first word of the usage, xoa/cfgm.py:1551-1552 -/
def progOf (a : RstArgs) (prog : Option Str) (usage : Str) : Except RstErr Str :=
  match prog with
  | some p => .ok p
  | none => match splitWs [] usage with
    | [] => .error .indexError
    | w :: _ => .ok (a.basename w)

/-- the header of a section, xoa/cfgm.py:1546-1566 -/
def rstSection (a : RstArgs) (st : RstSt) (g1 : Str) (g2 : Option Str) : Except RstErr (List Str × RstSt) :=
  let sec := strip (titleFrom true g1)
  match g2 with
  | some u =>
    if sec = "Usage".toList then
      match progOf a st.prog (strip u) with
      | .error e => .error e
      | .ok p => match fmtSec a sec with
        | .error e => .error e
        | .ok f => .ok ([".. program:: ".toList ++ p ++ "\n".toList, f, "\n\t.. code-block:: bash\n\n\t\t".toList ++ strip u], ⟨true, some sec, some p⟩)
    else match fmtSec a sec with
      | .error e => .error e
      | .ok f => .ok ([f, [], [], "\t".toList ++ u], ⟨true, some sec, st.prog⟩)
  | none => match fmtSec a sec with
    | .error e => .error e
    | .ok f => .ok ([f, []], ⟨st.multi, some sec, st.prog⟩)

/-- a line that is neither a header nor an option, xoa/cfgm.py:1578-1607 -/
def rstOther (a : RstArgs) (st : RstSt) (line : Str) : Except RstErr (List Str × RstSt) :=
  if st.sec.map lower = some "positional arguments".toList ∧ "  ".toList.isPrefixOf line = true then
    match splitWs [] line with
    | [] => .error .indexError
    | w :: ws =>
      .ok ([[], "\t.. cmdoption:: ".toList ++ w, []] ++ (if ws.isEmpty then [] else ["\t\t".toList ++ joinLines [' '] ws]), ⟨true, st.sec, st.prog⟩)
  else if st.multi = true ∧ strip line ≠ [] ∧ "   ".toList.isPrefixOf line = true then
    .ok ([(if st.sec = some "Usage".toList then "\t\t\t".toList else "\t\t".toList) ++ strip line], st)
  else if st.sec = some "Usage".toList then
    match fmtSec a a.descname with
    | .error e => .error e
    | .ok f => .ok ([(if a.descname = "Usage".toList then "\t".toList else []) ++ line, f, []], ⟨false, some a.descname, st.prog⟩)
  else .ok ([(if st.sec = some a.descname ∧ a.descname ≠ [] then "\t".toList else []) ++ line], ⟨false, st.sec, st.prog⟩)

/-- one line of the help, xoa/cfgm.py:1540-1607 -/
def rstLine (a : RstArgs) (st : RstSt) (line : Str) : Except RstErr (List Str × RstSt) :=
  match secOf line with
  | some (g1, g2) => rstSection a st g1 g2
  | none => match a.reOpt line with
    | some (names, desc) =>
      .ok ([[], "\t.. cmdoption:: ".toList ++ names, []] ++ (desc.toList.map fun d => "\t\t".toList ++ strip d), ⟨true, st.sec, st.prog⟩)
    | none => rstOther a st line

/-- the loop of `opt2rst` -/
def rstLoop (a : RstArgs) : RstSt → List Str → Except RstErr (List Str)
  | _, [] => .ok []
  | st, line :: lines => match rstLine a st line with
    | .error e => .error e
    | .ok (out, st') => match rstLoop a st' lines with
      | .error e => .error e
      | .ok rest => .ok (out ++ rest)

/-- `opt2rst(shelp, prog, secfmt, descname)`, xoa/cfgm.py:1506-1609, of the lines of a help text -/
def opt2rst (a : RstArgs) (prog : Option Str) (lines : List Str) : Except RstErr Str :=
  (rstLoop a ⟨false, none, prog⟩ lines).map (joinLines ['\n'])

/-- what is given to `opt2rst` -/
inductive PyText
  | str (lines : List Str)
  | bytes (lines : List Str)

/-- `opt2rst` of a text or of bytes: a text pattern does not match bytes -/
def opt2rstPy (a : RstArgs) : PyText → Except RstErr Str
  | .str l => opt2rst a none l
  | .bytes [] => .ok []
  | .bytes (_ :: _) => .error .typeError

/-- `arg_long_help(rst)`, xoa/cfgm.py:1348-1398, of the lines of the help that `argparse` formats: they are encoded, xoa/cfgm.py:1392, then
converted if asked -/
def argLongHelp (a : RstArgs) (rst : Bool) (help : List Str) : Except RstErr PyText :=
  if rst then (opt2rstPy a (.bytes help)).map fun s => .str [s] else .ok (.bytes help)

end Xoa
