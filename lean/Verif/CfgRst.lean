import Verif.CfgHelp
import Verif.SGLoc

/-! # Model of `cfg2rst` (xoa/cfgm.py:1987-2135) -/

namespace Xoa

/-- a section of a configuration as `cfg2rst` sees it: its options, with their inline comments and the items to write about them (none in
the mode "basic", the value in the mode "values", the items of the specification in the mode "specs"; lists are joined by ", "), then its
sections, with their inline comments. -/
inductive RSec
  | mk (opts : List (Str × Option Str × List (Str × Str))) (secs : List (Str × Option Str × RSec))

/-- what one call of the walker writes about: is it a section, the names of the sections above it, its name, its comment, its items -/
structure REntry where
  isSec : Bool
  path : List Str
  key : Str
  com : Option Str
  items : List (Str × Str)
  deriving DecidableEq

/-- `cfg.walk(..., call_on_sections=True)` of `configobj`: the options, then each section followed by what is in it -/
def rwalk (path : List Str) : RSec → List REntry
  | .mk opts secs =>
    opts.map (fun o => ⟨false, path, o.1, o.2.1, o.2.2⟩) ++
    secs.attach.flatMap (fun s => ⟨true, path, s.1.1, s.1.2.1, []⟩ :: rwalk (path ++ [s.1.1]) s.1.2.2)
  termination_by r => sizeOf r
  decreasing_by
    have h1 := List.sizeOf_lt_of_mem s.2
    have h2 : sizeOf s.1.2.2 < sizeOf s.1 := by
      obtain ⟨⟨a, b, c⟩, _⟩ := s
      simp
      omega
    simp
    omega

/-- `"[{}]".format("][".join(names))`, xoa/cfgm.py:2086 and 2092 -/
def brackets (names : List Str) : Str := "[".toList ++ joinLines "][".toList names ++ "]".toList

/-- the name of the directive, xoa/cfgm.py:2081-2095 -/
def rname (e : REntry) : Str :=
  if e.isSec then brackets (e.path ++ [e.key])
  else if e.path.isEmpty then e.key
  else brackets e.path ++ " ".toList ++ e.key

/-- the description, xoa/cfgm.py:2117-2120 -/
def rdesc (com : Option Str) : Str := capitalize (strip (stripHash (com.getD [])))

/-- `text.split("\n")` -/
def splitNl (cur : Str) : Str → List Str
  | [] => [cur.reverse]
  | c :: s => if c = '\n' then cur.reverse :: splitNl [] s else splitNl (c :: cur) s

/-- four blanks, `n` times -/
def indentOf (n : Nat) : Str := (List.replicate n "    ".toList).flatten

/-- `_redent(text, n)`, xoa/cfgm.py:1987-1990 -/
def redent (n : Nat) (text : Str) : Str := joinLines ['\n'] ((splitNl [] text).map (indentOf n ++ ·))

/-- the items before the description, xoa/cfgm.py:2124-2130 -/
def ritems : List (Str × Str) → Str
  | [] => []
  | (k, v) :: l => "| ".toList ++ k ++ ": ``".toList ++ (if v.isEmpty then " ".toList else v) ++ "``\n".toList ++ ritems l

/-- the description with the items -/
def rbody (e : REntry) : Str :=
  if e.items.isEmpty then rdesc e.com else ritems e.items ++ "\n".toList ++ rdesc e.com

/-- the text of one call of `_walker_cfg2rst_`, xoa/cfgm.py:2066-2135 -/
def rentry (optrole secrole : Str) (e : REntry) : Str :=
  redent e.path.length (".. ".toList ++ (if e.isSec then secrole else optrole) ++ ":: ".toList ++ rname e ++ "\n\n".toList ++ redent 1 (rbody e) ++ "\n".toList)

/-- `cfg2rst(cfg, mode, optrole, secrole)`, xoa/cfgm.py:1993-2063 -/
def cfg2rst (optrole secrole : Str) (cfg : RSec) : Str := joinLines ['\n'] ((rwalk [] cfg).map (rentry optrole secrole))

end Xoa
