import Verif.Options

/-!
# Model of threads that use the current CF specifications (xoa/cf.py:2325-2436)

`_CACHE["specs"]` is shared by the threads of a process. Any number of threads call `get_cf_specs()`, enter and leave contexts `with set_cf_specs(specs)` and reset the memory; the interpreter may switch from one to another
between any two accesses to `_CACHE`. The file of the cache is not used here (see `CfConc.lean`). A `CFSpecs` object is a number; those that `get_cf_specs` builds are numbered from `next`.
-/

namespace Xoa

inductive COp
  /-- `get_cf_specs()` -/
  | get
  /-- `set_cf_specs(obj)` and entry in the context -/
  | enter (obj : Nat)
  /-- exit from the innermost context of the thread -/
  | exit
  /-- `reset_cache(disk=False, memory=True)` -/
  | reset
  deriving DecidableEq

/-- the next access of a thread to `_CACHE` -/
inductive CfPoint
  | idle
  /-- `if "specs" not in _CACHE`, :2399 -/
  | check1
  /-- `if "specs" not in _CACHE`, :2416 -/
  | check2
  /-- `set_cf_specs(CFSpecs())`, :2419 -/
  | build
  /-- `cf_source = _CACHE["specs"]`, :2436 -/
  | read
  /-- `self.old_specs = _CACHE.get("specs", None)`, :2329 -/
  | old (obj : Nat)
  /-- `_CACHE["specs"] = self.specs = cf_source`, :2330 -/
  | store (obj : Nat) (old : Option Nat)
  /-- `__exit__`, :2335-2339 -/
  | exit
  /-- `_CACHE.clear()`, :2359 -/
  | clear
  deriving DecidableEq

inductive CfRes
  | done
  | got (obj : Nat)
  | keyError
  deriving DecidableEq

/-- a call that has ended, with the specifications of the contexts of the thread, the innermost first -/
structure CfOut where
  thread : Nat
  op : COp
  result : CfRes
  ctx : List Nat
  deriving DecidableEq

/-- a thread: its call, its next access and its contexts (`self.specs`, `self.old_specs`), the innermost first -/
structure CfThr where
  op : COp
  at_ : CfPoint
  saved : List (Nat × Option Nat)

structure CfSys where
  specs : Option Nat
  next : Nat
  threads : Nat → CfThr
  log : List CfOut

inductive CfEv
  | call (t : Nat) (op : COp)
  | run (t : Nat)
  deriving DecidableEq

def CfSys.start (specs : Option Nat) (next : Nat) : CfSys := ⟨specs, next, fun _ => ⟨.get, .idle, []⟩, []⟩

def CfSys.setThr (s : CfSys) (t : Nat) (x : CfThr) : CfSys := { s with threads := fun u => if u = t then x else s.threads u }

def CfSys.goto (s : CfSys) (t : Nat) (p : CfPoint) : CfSys := s.setThr t ⟨(s.threads t).op, p, (s.threads t).saved⟩

/-- the call ends -/
def CfSys.ret (s : CfSys) (t : Nat) (r : CfRes) : CfSys := { (s.goto t .idle) with log := s.log ++ [⟨t, (s.threads t).op, r, (s.threads t).saved.map (·.1)⟩] }

/-- the next access of a thread -/
def cftRun (t : Nat) (s : CfSys) : CfSys :=
  match (s.threads t).at_ with
  | .idle => s
  | .check1 => if s.specs.isSome then s.goto t .read else s.goto t .check2
  | .check2 => if s.specs.isSome then s.goto t .read else s.goto t .build
  | .build => ({ s with specs := some s.next, next := s.next + 1 } : CfSys).goto t .read
  | .read => match s.specs with
    | none => s.ret t .keyError
    | some x => s.ret t (.got x)
  | .old obj => s.goto t (.store obj s.specs)
  | .store obj old => ({ s with specs := some obj }.setThr t ⟨(s.threads t).op, .idle, (obj, old) :: (s.threads t).saved⟩).ret t .done
  | .exit => match (s.threads t).saved with
    | [] => s.ret t .done
    | (_, some x) :: rest => ({ s with specs := some x }.setThr t ⟨(s.threads t).op, .idle, rest⟩).ret t .done
    | (_, none) :: rest => match s.specs with
      | some _ => ({ s with specs := none }.setThr t ⟨(s.threads t).op, .idle, rest⟩).ret t .done
      | none => (s.setThr t ⟨(s.threads t).op, .idle, rest⟩).ret t .keyError
  | .clear => ({ s with specs := none } : CfSys).ret t .done

def COp.first : COp → CfPoint
  | .get => .check1
  | .enter obj => .old obj
  | .exit => .exit
  | .reset => .clear

def cftStep (e : CfEv) (s : CfSys) : CfSys :=
  match e with
  | .call t op => match (s.threads t).at_ with
    | .idle => s.setThr t ⟨op, op.first, (s.threads t).saved⟩
    | _ => s
  | .run t => cftRun t s

def cftExec : List CfEv → CfSys → CfSys
  | [], s => s
  | e :: es, s => cftExec es (cftStep e s)

end Xoa
