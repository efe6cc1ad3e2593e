import Verif.Misc
import Verif.CfgHelp

/-! # Data samples, command line, information and documentation of the choices

Printed text is a list of lines. The libraries are parameters: what is installed, what exists on the disk, the lines of
`configobj`'s `write`. -/

namespace Xoa

/-- the errors of the functions of this file -/
inductive InfoErr
  | xoaError
  | typeError
  | attributeError
  | usage        -- `argparse` prints the usage and exits with status 2
  | formatError  -- `str.format`: unknown field or bad braces (`KeyError`, `IndexError`, `ValueError`)
  deriving DecidableEq, Repr

/-! ## Data samples -/

/-- the argument of `get_data_sample`: nothing, a text or something else -/
inductive SmpArg
  | none_
  | text (s : Str)
  | other
  deriving DecidableEq, Repr

/-- what `get_data_sample` returns: a list of names or a path -/
inductive SmpOut
  | names (l : List Str)
  | path (s : Str)
  deriving DecidableEq, Repr

/-- the names of the samples: `none` is a directory that does not exist, xoa/__init__.py:443-446 -/
def sampleNames : Option (List Str) → List Str
  | none => []
  | some l => l

/-- `os.path.join(d, f)` (posix) -/
def osJoin (d f : Str) : Str :=
  if f.head? = some '/' then f
  else if d = [] ∨ d.getLast? = some '/' then d ++ f
  else d ++ '/' :: f

/-- `get_data_sample(filename)`, xoa/__init__.py:417-452. Something that is not a text is not in the list, and adding it to the text
of the message is a `TypeError`. -/
def getDataSample (dirname : Str) (dir : Option (List Str)) : SmpArg → Except InfoErr SmpOut
  | .none_ => .ok (.names (sampleNames dir))
  | .text s => if s ∉ sampleNames dir then .error .xoaError else .ok (.path (osJoin dirname s))
  | .other => .error .typeError

/-- `open_data_sample(filename)`, xoa/__init__.py:455-486, where `op` is `xarray.open_dataset`; without a name the list itself would be opened -/
def openDataSample {α : Type} (op : SmpOut → Except InfoErr α) (dirname : Str) (dir : Option (List Str)) (a : SmpArg) : Except InfoErr α :=
  (getDataSample dirname dir a).bind op

/-- `' '.join(names)` -/
def joinBlank (l : List Str) : Str := List.intercalate [' '] l

/-- `show_data_samples()`, xoa/__init__.py:489-505 -/
def showDataSamples (dir : Option (List Str)) : List Str := [joinBlank (sampleNames dir)]

/-! ## Versions, paths and options -/

/-- `_PACKAGES`, xoa/__init__.py:85-96 -/
def infoPackages : List Str :=
  ["appdirs", "cartopy", "cmocean", "configobj", "matplotlib", "numpy", "pandas", "scipy", "xarray", "xesmf"].map String.toList

/-- one line of `show_versions`, xoa/__init__.py:362-367 -/
def versionLine (installed : Str → Option Str) (p : Str) : Str :=
  "- ".toList ++ p ++ ": ".toList ++ (match installed p with
    | some v => v
    | none => "NOT INSTALLED or UKNOWN".toList)

/-- `show_versions()`, xoa/__init__.py:348-367 -/
def showVersions (py : Str) (installed : Str → Option Str) : List Str :=
  ("- python: ".toList ++ py) :: ("- xoa: ".toList ++ "0.1.0".toList) :: infoPackages.map (versionLine installed)

/-- one line of the loop of `show_paths`, xoa/__init__.py:384-390 -/
def pathLine (onDisk : Str → Bool) (lp : Str × Str) : Str :=
  "- ".toList ++ lp.1 ++ ": ".toList ++ lp.2 ++ (if onDisk lp.2 then [] else " [*]".toList)

/-- `show_paths()`, xoa/__init__.py:370-394: the labels and paths of the user files are given -/
def showPaths (onDisk : Str → Bool) (libdir : Str) (files : List (Str × Str)) (dir : Option (List Str)) : List Str :=
  ("- xoa library dir: ".toList ++ libdir) :: files.map (pathLine onDisk) ++
    ["- data samples: ".toList ++ joinBlank (sampleNames dir)] ++
    (if files.any (fun lp => !onDisk lp.2) then ["*: file not present".toList] else [])

/-- `text.strip("\n")` -/
def stripNl (s : Str) : Str := ((s.dropWhile (· = '\n')).reverse.dropWhile (· = '\n')).reverse

/-- `text.replace('#', ' #')` -/
def blankHash : Str → Str
  | [] => []
  | c :: s => if c = '#' then ' ' :: '#' :: blankHash s else c :: blankHash s

/-- `show_options(specs=False)`, xoa/__init__.py:328-332: `lines` are the lines that `configobj` writes for the current options -/
def showOptions (lines : List Str) : Str := blankHash (stripNl (List.intercalate ['\n'] lines))

/-! ## The command line -/

/-- what is printed by a command -/
inductive Block
  | versions
  | paths
  | options        -- the current values of the options
  | specs          -- the specifications of the options
  deriving DecidableEq, Repr

/-- the namespace given by `parse_args`: `func` and `category` are set by the sub-command -/
structure CliArgs where
  func : Bool
  category : Option Str
  deriving DecidableEq, Repr

/-- the choices of the category, xoa/cli.py:35-37 -/
def cliCats : List Str := ["all", "paths", "versions", "options"].map String.toList

/-- `get_parser().parse_args(argv)`, xoa/cli.py:27-40, for words that do not begin with a dash: a sub-command is not required by
`add_subparsers`, its only name is `info`, its only argument may be omitted and has choices and a default value. -/
def cliParse : List Str → Except InfoErr CliArgs
  | [] => .ok ⟨false, none⟩
  | [w] => if w = "info".toList then .ok ⟨true, some "all".toList⟩ else .error .usage
  | [w, c] => if w = "info".toList ∧ c ∈ cliCats then .ok ⟨true, some c⟩ else .error .usage
  | _ => .error .usage

/-- `show_info(opt_specs)`, xoa/__init__.py:397-414 -/
def showInfo (optSpecs : Bool) : List Block := [.versions, .paths, if optSpecs then .specs else .options]

/-- `main_info(parser, args)`, xoa/cli.py:50-58, with the default value of `opt_specs`, xoa/__init__.py:397 -/
def mainInfo (category : Option Str) : List Block :=
  if category = some "all".toList then showInfo true
  else if category = some "versions".toList then [.versions]
  else if category = some "paths".toList then [.paths]
  else if category = some "options".toList then [.options]
  else []

/-- `main(argv)`, xoa/cli.py:43-47 -/
def cliMain (argv : List Str) : Except InfoErr (List Block) :=
  (cliParse argv).bind fun args => if args.func then .ok (mainInfo args.category) else .error .attributeError

/-! ## Choices -/

/-- the declaration of choices: a list, or a dictionary with the documentation of each value -/
inductive ChoiceDecl
  | list (l : List Choice)
  | dict (l : List (Choice × Str))

/-- a `Choices` object: the accepted values, their documentation, the name of the parameter and the description -/
structure ChoicesObj where
  ci : Bool
  vals : List Choice
  docs : List (Choice × Str)
  param : Str
  desc : Str

/-- `d[k] = v` -/
def setChoice (k : Choice) (v : Str) : List (Choice × Str) → List (Choice × Str)
  | [] => [(k, v)]
  | (k', v') :: d => if k' = k then (k, v) :: d else (k', v') :: setChoice k v d

/-- `Choices.__init__`, xoa/misc.py:186-200. The name of the parameter is given (`None` is the name of the class). -/
def choicesInit (ci : Bool) (param desc : Str) : ChoiceDecl → ChoicesObj
  | .list l => ⟨ci, l.map (reformat ci), [], param, desc⟩
  | .dict l => ⟨ci, l.map (fun p => reformat ci p.1), l.foldl (fun d p => setChoice (reformat ci p.1) p.2 d) [], param, desc⟩

/-- the item of a list of texts that is joined: something else is a `TypeError` -/
def choiceText : Choice → Except InfoErr Str
  | .str s => .ok s
  | .other _ => .error .typeError

/-- `str(choices)`, xoa/misc.py:219-220 -/
def choicesStr (c : ChoicesObj) : Except InfoErr Str :=
  (c.vals.mapM choiceText).map (fun l => List.intercalate ", ".toList l)

/-- `choices[choice]`, xoa/misc.py:211-217: the message of the error holds `str(choices)` -/
def choicesItem (c : ChoicesObj) (v : Choice) : Except InfoErr Choice :=
  if reformat c.ci v ∈ c.vals then .ok (reformat c.ci v)
  else (choicesStr c).bind fun _ => .error .xoaError

/-- `choices.to_docstring(indent)`, xoa/misc.py:222-246: its lines, where `rep` is `repr` and `fmt` is `format` -/
def choicesDoc (rep fmt : Choice → Str) (indent : Nat) (c : ChoicesObj) : List Str :=
  let ind := List.replicate indent ' '
  let pind := ind ++ List.replicate 4 ' '
  (ind ++ c.param ++ ": {".toList ++ List.intercalate ", ".toList (c.vals.map rep) ++ "}".toList) ::
    ((if c.desc = [] then [] else [pind ++ c.desc]) ++
      (if c.docs = [] then [] else [[]] ++ c.docs.map (fun p => pind ++ "- ``".toList ++ fmt p.1 ++ "``: ".toList ++ p.2) ++ [[]]))

/-- `str.format` with one named field: outside of a field (`none`) or inside of it (the name so far). A field that is not exactly the
name is an error (format specifications and attributes are not modelled). -/
def fmtGo (name val : Str) : Option Str → Str → Except InfoErr Str
  | none, [] => .ok []
  | some _, [] => .error .formatError
  | none, '{' :: '{' :: s => (fmtGo name val none s).map ('{' :: ·)
  | none, '}' :: '}' :: s => (fmtGo name val none s).map ('}' :: ·)
  | none, c :: s =>
    if c = '{' then fmtGo name val (some []) s
    else if c = '}' then .error .formatError
    else (fmtGo name val none s).map (c :: ·)
  | some f, c :: s =>
    if c = '}' then
      if f = name then (fmtGo name val none s).map (val ++ ·) else .error .formatError
    else fmtGo name val (some (f ++ [c])) s

/-- `choices.format_function_docstring(func)` and `format_method_docstring`, xoa/misc.py:248-256: the new documentation; a function
without documentation has no method `format` -/
def formatDocstring (rep fmt : Choice → Str) (indent : Nat) (c : ChoicesObj) : Option Str → Except InfoErr Str
  | none => .error .attributeError
  | some doc => fmtGo c.param ((choicesDoc rep fmt indent c).flatMap (· ++ ['\n'])) none doc

/-! ## Enumerations -/

/-- `groups.setdefault(number, []).append(name)` -/
def addGroup (number : Int) (name : Str) : List (Int × List Str) → List (Int × List Str)
  | [] => [(number, [name])]
  | (n, l) :: g => if n = number then (n, l ++ [name]) :: g else (n, l) :: addGroup number name g

/-- `_get_groups_()`, xoa/misc.py:75-79 -/
def enumGroups (e : EnumDecl) : List (Int × List Str) := e.foldl (fun g p => addGroup p.2 p.1 g) []

/-- `_get_choices_(es)`, xoa/misc.py:81-86, where `dec` is `format(number, "d")` -/
def enumChoices (dec : Int → Str) (es : Str) (e : EnumDecl) : List Str :=
  (enumGroups e).map fun g => es ++ List.intercalate ['|'] (dec g.1 :: g.2.map (fun n => '"' :: n ++ ['"'])) ++ es

/-- `str(enumeration)`, xoa/misc.py:88-89 -/
def enumStr (dec : Int → Str) (e : EnumDecl) : Str := List.intercalate ", ".toList (enumChoices dec [] e)

/-- `get_rst(with_links, link_module)`, xoa/misc.py:94-107, where `cls` is the name of the class -/
def enumRst (dec : Int → Str) (cls : Str) (withLinks : Bool) (linkModule : Str) (e : EnumDecl) : Str :=
  if withLinks then
    let prefix_ := (if linkModule = [] then [] else linkModule ++ ".".toList) ++ cls ++ ".".toList
    List.intercalate ", ".toList ((enumGroups e).map fun g =>
      ":attr:`".toList ++ List.intercalate ['|'] (dec g.1 :: g.2.map (fun n => '"' :: n ++ ['"'])) ++ "<".toList ++ prefix_ ++ g.2.headD [] ++ ">`".toList)
  else List.intercalate ", ".toList (enumChoices dec "``".toList e)

end Xoa
