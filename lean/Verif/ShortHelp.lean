import Verif.CfgHelp

/-!
# Model of the reduced helps of the command line (xoa/cfgm.py: `print_short_help`, help options of `arg_parse`)

What `argparse` does with the pieces (usage line, texts, sections) is not modelled: the printed help is the list of these pieces. `optTitle` is the title
that `argparse` gives to the group of the options: `"optional arguments"` up to Python 3.9, `"options"` from Python 3.10.
-/

namespace Xoa

/-- an `argparse` action: its names (none for a positional argument) and its help -/
structure HAct where
  names : List Str
  help : Str
  deriving DecidableEq, Repr

structure HGroup where
  title : Str
  desc : Option Str
  acts : List HAct
  deriving DecidableEq, Repr

structure HParser where
  usage : Option Str
  desc : Option Str
  epilog : Option Str
  acts : List HAct
  groups : List HGroup

/-- the pieces of a help -/
inductive HPiece
  | usage (u : Option Str) (acts : List HAct)
  | text (t : Option Str)
  | sect (title : Str) (desc : Option Str) (acts : List HAct)
  deriving DecidableEq, Repr

/-- the argument `compressed` -/
inductive Compressed
  | flag (b : Bool)
  | one (s : Str)
  | many (l : List Str)

/-- xoa/cfgm.py:2146-2156: the names of the options that the usage keeps; `none` for all of them -/
def keptNames : Compressed → Option (List Str)
  | .flag true => some ["-h".toList, "-help".toList, "--long-help".toList, "--short-help".toList, "--cfgfile".toList]
  | .flag false => none
  | .one s => if s.isEmpty then none else some [s]
  | .many l => if l.isEmpty then none else some l

/-- `AP_Action(["other-options"], dest="")`, xoa/cfgm.py:2158 -/
def otherOptions : HAct := ⟨["other-options".toList], []⟩

/-- `valid_option`, xoa/cfgm.py:2160-2165 -/
def keptAct (names : List Str) (a : HAct) : Bool := a.names.isEmpty || a.names.any (· ∈ names)

/-- the actions of the usage line, xoa/cfgm.py:2157-2170 -/
def usageActs (c : Compressed) (acts : List HAct) : List HAct :=
  match keptNames c with
  | some names => acts.filter (keptAct names) ++ [otherOptions]
  | none => acts

/-- `print_short_help(parser, compressed=...)` of an `ArgumentParser`, xoa/cfgm.py:2138-2192 -/
def printShortHelp (c : Compressed) (p : HParser) : List HPiece :=
  [.usage p.usage (usageActs c p.acts), .text p.desc] ++
    (p.groups.filter fun g => g.title ∈ ["positional arguments".toList, "optional arguments".toList]).map (fun g => .sect g.title g.desc g.acts) ++ [.text p.epilog]

/-- `cfgfileopt`, xoa/cfgm.py:1191-1198: the names of the option of the configuration file -/
def cfgfileNames (s : Str) : List Str :=
  if s.head? = some '-' then [s] else if s.length = 1 then ['-' :: s] else ['-' :: '-' :: s]

/-- the options that `arg_parse` declares before those of the configuration, xoa/cfgm.py:1157-1206, with the extra options that are declared
(the last one, see C150). An empty `cfgfileopt` declares none. -/
def helpActs (extra : Option HAct) (cfgfileopt : Str) : List HAct :=
  [⟨["-h".toList, "--help".toList], "show a reduced help and exit".toList⟩, ⟨["--long-help".toList], "show an extended help and exit".toList⟩,
    ⟨["--short-help".toList], "show a very reduced help and exit".toList⟩] ++ extra.toList ++
  (if cfgfileopt.isEmpty then [] else [⟨cfgfileNames cfgfileopt, "user configuration file that overrides defauts [default: \"{default}\"]".toList⟩])

/-- the parser of `arg_parse` without a given parser: the two groups of `argparse`, then a group for each group of configuration options -/
def argParser (optTitle : Str) (extra : Option HAct) (cfgfileopt : Str) (groups : List HGroup) : HParser :=
  let acts := helpActs extra cfgfileopt
  { usage := none, desc := none, epilog := none, acts := acts ++ groups.flatMap (·.acts),
    groups := [⟨"positional arguments".toList, none, acts.filter (·.names.isEmpty)⟩, ⟨optTitle, none, acts.filter (!·.names.isEmpty)⟩] ++ groups }

/-- `-h`, xoa/cfgm.py:2195-2198 -/
def reducedHelp (p : HParser) : List HPiece := printShortHelp (.flag false) p

/-- `--short-help`, xoa/cfgm.py:2201-2204 -/
def veryReducedHelp (p : HParser) : List HPiece := printShortHelp (.flag true) p

end Xoa
