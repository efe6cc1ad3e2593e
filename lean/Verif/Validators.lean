import Verif.Str
import Mathlib.Algebra.Order.Field.Rat

/-!
# Model of the validators of boxes, intervals and colors (xoa/cfgm.py)

`F` is the type of evaluated values: `float` and `eval` are parameters (`none` when they raise).
-/

namespace Xoa

inductive VdErr
  | vdt    -- `VdtTypeError`: the validation fails
  | attr   -- `AttributeError`, not a validation error
  | value  -- `ValueError`, not a validation error
  deriving DecidableEq, Repr

/-- a value to validate: `None`, a text or a list of texts (as the values with commas are in a file) -/
inductive VdVal
  | none
  | text (s : Str)
  | list (l : List Str)
  deriving DecidableEq, Repr

/-- `str.split()` -/
def splitWs (cur : Str) : Str → List Str
  | [] => if cur = [] then [] else [cur.reverse]
  | c :: s =>
    if isSpace c then (if cur = [] then splitWs [] s else cur.reverse :: splitWs [] s)
    else splitWs (c :: cur) s

/-- `str.split(",")` -/
def splitComma (cur : Str) : Str → List Str
  | [] => [cur.reverse]
  | c :: s => if c = ',' then cur.reverse :: splitComma [] s else splitComma (c :: cur) s

/-- `is_bbox(value, default)`, xoa/cfgm.py:197-209 -/
def isBbox {F : Type} (toFloat : Str → Option F) (dflt value : VdVal) : Except VdErr (Option (List F)) :=
  if value = .none ∨ value = .text "None".toList then .ok none
  else
    match (if value = .text [] then dflt else value) with
    | .text s =>
      let c := (splitWs [] s).flatMap (splitComma [])
      if c.length ≠ 4 then .error .vdt
      else match c.mapM toFloat with
        | none => .error .value
        | some l => .ok (some l)
    | _ => .error .attr

/-- the characters of `"()[] "` -/
def isBracket (c : Char) : Bool := c = '(' || c = ')' || c = '[' || c = ']' || c = ' '

/-- `value.strip("()[] ")` -/
def stripBrackets (s : Str) : Str := ((s.dropWhile isBracket).reverse.dropWhile isBracket).reverse

/-- `re.search("([co]{1,2}[ne]{0,2})", s)` -/
def boundsSearch : Str → Option Str
  | [] => none
  | c :: s =>
    if c = 'c' ∨ c = 'o' then
      let a := (c :: s).takeWhile (fun c => c = 'c' || c = 'o')
      let a := a.take 2
      let b := ((c :: s).drop a.length).takeWhile (fun c => c = 'n' || c = 'e')
      some (a ++ b.take 2)
    else boundsSearch s

/-- `eval(val)`, or the text itself when it fails -/
def evalOr {F : Type} (ev : Str → Option F) (s : Str) : F ⊕ Str :=
  match ev s with
  | some x => .inl x
  | none => .inr s

/-- `is_interval`, xoa/cfgm.py:290-307: the parts of the text -/
def intervalOf {F : Type} (ev : Str → Option F) : List Str → Except VdErr (Option ((F ⊕ Str) × (F ⊕ Str) × Option Str))
  | [a, b] => .ok (some (evalOr ev a, evalOr ev b, none))
  | [a, b, c] =>
    if c = [] then .ok (some (evalOr ev a, evalOr ev b, none))
    else match boundsSearch c with
      | none => .error .vdt
      | some m => .ok (some (evalOr ev a, evalOr ev b, some m))
  | _ => .error .vdt

/-- `is_interval`, xoa/cfgm.py:288-293: the text without its parentheses -/
def intervalText {F : Type} (ev : Str → Option F) (s : Str) : Except VdErr (Option ((F ⊕ Str) × (F ⊕ Str) × Option Str)) :=
  let s := if s.head? = some '(' then s.drop 1 else s
  let s := if s.getLast? = some ')' then s.dropLast else s
  intervalOf ev (splitComma [] s)

/-- `is_interval(value)`, xoa/cfgm.py:278-307: min, max and bounds -/
def isInterval {F : Type} (ev : Str → Option F) (value : VdVal) : Except VdErr (Option ((F ⊕ Str) × (F ⊕ Str) × Option Str)) :=
  let value : VdVal := match value with
    | .text s => .text (stripBrackets s)
    | v => v
  if value = .none ∨ value = .text "None".toList then .ok none
  else
    intervalText ev (match value with
      | .text s => s
      | .list l => List.intercalate [','] l
      | .none => [])

/-- `_check256_(val, as256)` of a tuple of numbers, xoa/cfgm.py:496-503 -/
def check256 (val : List ℚ) (as256 : Option Bool) : List ℚ :=
  if as256.getD ((val.take 3).any (fun v => decide (1 < v))) then (val.take 3).map (fun v => v / 256) ++ val.drop 3 else val

end Xoa
