-- lake env lean --run gen_cfcats.txt > Verif/CfBuiltinCats.lean
import Verif.CfBuiltin
open Xoa
def q (s : Str) : String := "[" ++ String.intercalate ", " (s.map fun c => "'" ++ c.toString ++ "'") ++ "]"
def ls (l : List Str) : String := "[" ++ String.intercalate ", " (l.map q) ++ "]"
def rf : Refs → String | .list l => ".list " ++ ls l | .text s => ".text " ++ q s | .none_ => ".none_"
def it (p : Str × CfSpec) : String := "  -- " ++ String.ofList p.1 ++ "\n  (" ++ q p.1 ++ ", ⟨" ++ (if p.2.names.isEmpty then "[]" else ls p.2.names) ++ ",\n    [" ++ String.intercalate ", " (p.2.attrs.map fun a => "(" ++ q a.1 ++ ", " ++ rf a.2 ++ ")") ++ "],\n    " ++ q p.2.searchOrder ++ "⟩)"
def main : IO Unit := do
  let c := builtinLoaded
  IO.println "import Verif.CfBuiltin\n\n/-!\n# The built-in CF specifications, as they are after loading\n\nGenerated by evaluating `builtinLoaded`; the kernel checks below that these are the result of the load.\n-/\n\nset_option maxRecDepth 20000\n\nnamespace Xoa\n"
  IO.println "/-- the built-in data variables (xoa/cf.cfg:1-994 after loading, xoa/cf.py:761-786) -/\ndef builtinVars : CfCat := ["
  IO.println (String.intercalate ",\n" ((catLoaded cVars c).map it) ++ "]\n")
  IO.println "/-- the built-in coordinates (xoa/cf.cfg:995-1061 after loading, xoa/cf.py:761-786) -/\ndef builtinCoords : CfCat := ["
  IO.println (String.intercalate ",\n" ((catLoaded cCoords c).map it) ++ "]\n")
  IO.println "/-- the built-in dimensions (xoa/cf.cfg:1062-1067 after loading, xoa/cf.py:782-786) -/\ndef builtinDims : CfDims := ["
  IO.println (String.intercalate ",\n" ((dimsLoaded c).map fun p => "  (" ++ q p.1 ++ ", " ++ ls p.2 ++ ")") ++ "]\n")
  IO.println "deriving instance DecidableEq for CfSpec\n"
  IO.println "/-- loading the built-in file succeeds, and gives these data variables, coordinates and dimensions -/"
  IO.println "theorem builtin_loaded : builtinLoaded.toOption.isSome = true ∧ catLoaded cVars builtinLoaded = builtinVars ∧"
  IO.println "    catLoaded cCoords builtinLoaded = builtinCoords ∧ dimsLoaded builtinLoaded = builtinDims := by decide +kernel\n\nend Xoa"
