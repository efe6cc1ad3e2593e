import Verif.Options

/-!
# Model of threads that use the options (xoa/__init__.py:126-308)

`_CACHE` is shared by all the threads of a process. Any number of threads call `get_option`, `load_options`, `set_options` as a context, leave their contexts or call `reset_options`; the interpreter may switch
from one to another between any two accesses to `_CACHE`. The contents of the options are those of `Options.lean`.

Simplifications: an access to `_CACHE["options"]` and the merge, the validation or the reading of the object that it gives are one step; `_CACHE["cfgspecs"]` is already there.
-/

namespace Xoa

/-- the calls -/
inductive TOp
  /-- `get_option(section, option)` -/
  | get (sec : Str) (opt : Option Str)
  /-- `load_options(cfg)` -/
  | load (c : Opts)
  /-- `set_options(section, **options)` and entry in the context -/
  | enter (sec : Option Str) (o : List (Str × OVal))
  /-- exit from the innermost context of the thread -/
  | exit
  /-- `reset_options()` -/
  | reset
  deriving DecidableEq

/-- what comes after `load_options` -/
inductive TCont
  | ret
  /-- :179 -/
  | read (sec : Str) (opt : Option Str)
  /-- end of `set_options.__init__`, :260 -/
  | entered (old : Option Nat)

/-- the next access of a thread to `_CACHE` -/
inductive TPoint
  | idle
  /-- `"options" not in _CACHE`, :155 -/
  | check (c : Opts) (k : TCont)
  /-- the user file has been read; `_CACHE["options"] = ...`, :156-166 -/
  | store (c : Opts) (k : TCont)
  /-- `if cfgfile: _CACHE["options"].merge(...)`, :167-172 -/
  | merge (c : Opts) (k : TCont)
  /-- `_CACHE["options"].validate(...)`, :173 -/
  | validate (k : TCont)
  /-- `"options" not in _CACHE`, :177 -/
  | gcheck (sec : Str) (opt : Option Str)
  /-- `return _CACHE["options"]`, :179, then :194-207 -/
  | gread (sec : Str) (opt : Option Str)
  /-- `self.old_options = _CACHE.get("options")`, :244 -/
  | enter (sec : Option Str) (o : List (Str × OVal))
  /-- `del _CACHE["options"]`, :245, then :246-257 -/
  | del (sec : Option Str) (o : List (Str × OVal)) (old : Option Nat)
  /-- `__enter__`, :263 -/
  | enter2 (old : Option Nat)
  /-- `__exit__`, :265-269 -/
  | exit
  /-- `del _CACHE['options']`, :308 -/
  | reset

inductive TRes
  | done
  | got (r : GetRes)
  | keyError
  | configError
  deriving DecidableEq

/-- a call that has ended -/
structure TOut where
  thread : Nat
  op : TOp
  result : TRes
  deriving DecidableEq

/-- a thread: its current call and its next access, and the options saved by its contexts, the innermost first -/
structure Thr where
  op : TOp
  at_ : TPoint
  saved : List (Option Nat)

structure TSys where
  o : OSt
  threads : Nat → Thr
  log : List TOut

inductive TEvent
  /-- a thread starts a call -/
  | call (t : Nat) (op : TOp)
  /-- a thread executes its next access -/
  | run (t : Nat)
  deriving DecidableEq

/-- no thread in a call or in a context -/
def TSys.start (o : OSt) : TSys := ⟨o, fun _ => ⟨.reset, .idle, []⟩, []⟩

def TSys.setThr (s : TSys) (t : Nat) (x : Thr) : TSys := { s with threads := fun u => if u = t then x else s.threads u }

def TSys.goto (s : TSys) (t : Nat) (p : TPoint) : TSys := s.setThr t ⟨(s.threads t).op, p, (s.threads t).saved⟩

/-- the call ends -/
def TSys.ret (s : TSys) (t : Nat) (r : TRes) : TSys := { (s.goto t .idle) with log := s.log ++ [⟨t, (s.threads t).op, r⟩] }

/-- after `load_options` -/
def TSys.after (s : TSys) (t : Nat) : TCont → TSys
  | .ret => s.ret t .done
  | .read sec opt => s.goto t (.gread sec opt)
  | .entered old => s.goto t (.enter2 old)

/-- `options[section][option]` or its failures, xoa/__init__.py:195-207 -/
def readOption (o : Opts) (sec : Str) (opt : Option Str) : GetRes :=
  match opt with
  | some op => match get2 sec op o with
    | some v => .val v
    | none => .returnedError
  | none => match splitOption sec with
    | some (se, op) => match get2 se op o with
      | some v => .val v
      | none => .returnedError
    | none => .raised

def OSt.put (s : OSt) (a : Nat) (c : Opts) : OSt := { s with objs := s.objs.set a c }

/-- the next access of a thread -/
def tRun (user : Opts) (t : Nat) (s : TSys) : TSys :=
  match (s.threads t).at_ with
  | .idle => s
  | .check c k => if s.o.cur.isSome then s.goto t (.merge c k) else s.goto t (.store c k)
  | .store c k => ({ s with o := { objs := s.o.objs ++ [user], cur := some s.o.objs.length } } : TSys).goto t (.merge c k)
  | .merge c k => if c = [] then s.goto t (.validate k) else match s.o.cur with
    | none => s.ret t .keyError
    | some a => ({ s with o := s.o.put a (mergeO (s.o.at a) c) } : TSys).goto t (.validate k)
  | .validate k => match s.o.cur with
    | none => s.ret t .keyError
    | some a => ({ s with o := s.o.put a (validateO (s.o.at a)) } : TSys).after t k
  | .gcheck sec opt => if s.o.cur.isSome then s.goto t (.gread sec opt) else s.goto t (.check [] (.read sec opt))
  | .gread sec opt => match s.o.cur with
    | none => s.ret t .keyError
    | some a => s.ret t (.got (readOption (s.o.at a) sec opt))
  | .enter sec o => s.goto t (.del sec o s.o.cur)
  | .del sec o old => match s.o.cur with
    | none => s.ret t .keyError
    | some _ => match collectOpts sec o [] with
      | none => ({ s with o := { s.o with cur := none } } : TSys).ret t .configError
      | some c => ({ s with o := { s.o with cur := none } } : TSys).goto t (.check c (.entered old))
  | .enter2 old => match s.o.cur with
    | none => s.ret t .keyError
    | some _ => (s.setThr t ⟨(s.threads t).op, (s.threads t).at_, old :: (s.threads t).saved⟩).ret t .done
  | .exit => match (s.threads t).saved with
    | [] => s.ret t .done
    | old :: rest => ({ s with o := (setExit old s.o).1 }.setThr t ⟨(s.threads t).op, .exit, rest⟩).ret t (if (setExit old s.o).2 then .keyError else .done)
  | .reset => match s.o.cur with
    | none => s.ret t .keyError
    | some _ => ({ s with o := { s.o with cur := none } } : TSys).ret t .done

/-- the first access of a call -/
def TOp.first : TOp → TPoint
  | .get sec opt => .gcheck sec opt
  | .load c => .check c .ret
  | .enter sec o => .enter sec o
  | .exit => .exit
  | .reset => .reset

def tStep (user : Opts) (e : TEvent) (s : TSys) : TSys :=
  match e with
  | .call t op => match (s.threads t).at_ with
    | .idle => s.setThr t ⟨op, op.first, (s.threads t).saved⟩
    | _ => s
  | .run t => tRun user t s

def tExec (user : Opts) : List TEvent → TSys → TSys
  | [], s => s
  | e :: es, s => tExec user es (tStep user e s)

end Xoa
