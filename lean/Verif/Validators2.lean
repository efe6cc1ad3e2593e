import Verif.Validators

/-!
# Model of the validators of dates, durations, expressions and dictionaries (xoa/cfgm.py:327-549)

What pandas, numpy, `datetime`, `float` and `eval` give is a parameter, `none` when they raise. The values to validate are `None`, a text or
a list of texts.
-/

namespace Xoa

/-- how a validator fails -/
inductive DvErr
  | vdt      -- a `ValidateError`, which `validate` catches and reports
  | foreign  -- any other exception, which `validate` lets through
  deriving DecidableEq, Repr

/-- `str(value) == "None"` -/
def strNone (v : VdVal) : Bool := v = .none || v = .text "None".toList

/-- the result of a call that may raise -/
def orForeign {T : Type} : Option T → Except DvErr (Option T)
  | none => .error .foreign
  | some t => .ok (some t)

/-- `is_timestamp(value)`, xoa/cfgm.py:392-398, where `ts` is `pandas.Timestamp` -/
def isTimestamp {T : Type} (ts : VdVal → Option T) (v : VdVal) : Except DvErr (Option T) :=
  if strNone v then .ok none else orForeign (ts v)

/-- `is_datetime(value)`, xoa/cfgm.py:423-428, where `py` is `to_pydatetime` -/
def isDatetime {T U : Type} (ts : VdVal → Option T) (py : T → U) (v : VdVal) : Except DvErr (Option U) :=
  (isTimestamp ts v).map (Option.map py)

/-- `is_datetime64(value)`, xoa/cfgm.py:431-435, where `np` is `to_datetime64` -/
def isDatetime64 {T U : Type} (ts : VdVal → Option T) (np : T → U) (v : VdVal) : Except DvErr (Option U) :=
  if strNone v then .ok none else (isTimestamp ts v).map (Option.map np)

/-- `is_timedelta(value)` and `is_timedelta64(value)`, xoa/cfgm.py:401-420, where `td` is `pandas.Timedelta` or `numpy.timedelta64` -/
def isTimedelta {F T : Type} (toFloat : Str → Option F) (td : F → Str → Option T) (v : VdVal) : Except DvErr (Option T) :=
  if strNone v then .ok none
  else match v with
    | .list [a, u] => orForeign ((toFloat a).bind fun x => td x u)
    | _ => .error .vdt

/-- `is_daterange(value)`, xoa/cfgm.py:438-447: the function `pandas.time_range` does not exist, so that the call raises an `AttributeError`; before
this the fourth item is evaluated, which may raise too -/
def isDaterange {T : Type} (v : VdVal) : Except DvErr (Option T) :=
  if strNone v then .ok none
  else match v with
    | .list [_, _, _] => .error .foreign
    | .list [_, _, _, _] => .error .foreign
    | _ => .error .vdt

/-- `is_daterange64(value)`, xoa/cfgm.py:450-458, where `ar` is `numpy.arange` with the start, the end and the unit -/
def isDaterange64 {T : Type} (ar : Str → Str → Str → Option T) (v : VdVal) : Except DvErr (Option T) :=
  if strNone v then .ok none
  else match v with
    | .list [a, b, u] => orForeign (ar a b u)
    | _ => .error .vdt

/-- `is_pydatetime(value, default, fmt)`, xoa/cfgm.py:349-360, where `strp` is `datetime.strptime` with the format (`none`: `ValueError`); it
raises a `TypeError` when the value is not a text -/
def isPydatetime {T : Type} (strp : Str → Option T) (dflt v : VdVal) : Except DvErr (Option T) :=
  if strNone v then .ok none
  else match (if v = .text [] then dflt else v) with
    | .text s => match strp s with
      | none => .error .vdt
      | some t => .ok (some t)
    | _ => .error .foreign

/-- `is_path(value, default, expand)`, xoa/cfgm.py:329-346, where `ex` is `expandvars` of `expanduser` -/
def isPath (ex : Str → Str) (expand : Bool) (dflt v : VdVal) : VdVal :=
  if strNone v then .none
  else match (if v = .text [] then dflt else v) with
    | .text s => .text (if expand then ex s else s)
    | w => w

/-- `is_eval(value, unchanged_if_failed)`, xoa/cfgm.py:461-470, where `ev` is `eval` of `str(value)`: the evaluated value, or the value itself -/
def isEval {T : Type} (ev : VdVal → Option T) (unchanged : Bool) (v : VdVal) : Except DvErr (T ⊕ VdVal) :=
  match ev v with
  | some t => .ok (.inl t)
  | none => if unchanged then .ok (.inr v) else .error .vdt

/-- what the evaluation of a text gives -/
inductive EvOut (D : Type)
  | raises
  | dict (d : D)
  | other
  deriving DecidableEq

/-- `", ".join(value)` -/
def joinComma : List Str → Str
  | [] => []
  | [s] => s
  | s :: t :: l => s ++ ", ".toList ++ joinComma (t :: l)

/-- `^\s*(\w+\(.*\))\s*$` of a text without blanks around it: a word, then something between parentheses, on one line -/
def looksCall (s : Str) : Bool :=
  let w := s.takeWhile isWord
  let r := s.dropWhile isWord
  !w.isEmpty && decide (r.head? = some '(') && decide (2 ≤ r.length) && decide (r.getLast? = some ')') && !r.contains '\n'

/-- `^\s*(\{.*\})\s*$` of a text without blanks around it -/
def looksAcc (s : Str) : Bool :=
  decide (s.head? = some '{') && decide (2 ≤ s.length) && decide (s.getLast? = some '}') && !s.contains '\n'

/-- `^\s*(\w+)\s*=\s*(.+)\s*$` of a text without blanks around it: a word, an equal sign and something, on one line after the sign -/
def looksSet (s : Str) : Bool :=
  let w := s.takeWhile isWord
  let r := (s.dropWhile isWord).dropWhile isSpace
  let v := (r.drop 1).dropWhile isSpace
  !w.isEmpty && decide (r.head? = some '=') && !v.isEmpty && !v.contains '\n'

/-- the text that `is_dict` evaluates, xoa/cfgm.py:531-539; `none` is a `VdtTypeError` -/
def dictText (s : Str) : Option Str :=
  if looksCall s || looksAcc s then some s
  else if looksSet s then some ("dict(".toList ++ s ++ ")".toList)
  else none

/-- the evaluation, xoa/cfgm.py:540-548 -/
def dictEval {D : Type} (ev : Str → EvOut D) : Option Str → Except DvErr (Option D)
  | none => .error .vdt
  | some t => match ev t with
    | .dict d => .ok (some d)
    | _ => .error .vdt

/-- the end of `is_dict`, for a text, xoa/cfgm.py:528-549 -/
def dictOfText {D : Type} (ev : Str → EvOut D) (empty : D) (s : Str) : Except DvErr (Option D) :=
  if strip s = [] then .ok (some empty) else dictEval ev (dictText (strip s))

/-- `is_dict(value)`, xoa/cfgm.py:511-549 -/
def isDict {D : Type} (ev : Str → EvOut D) (empty : D) : VdVal → Except DvErr (Option D)
  | .none => .ok none
  | .text s => if s = "None".toList then .ok none else dictOfText ev empty s
  | .list l => dictOfText ev empty (joinComma l)

end Xoa
