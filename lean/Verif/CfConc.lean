import Verif.CfCache

/-!
# Model of sessions that use the cache file of the specifications at the same time (xoa/cf.py:2342-2436)

`CfCache.lean` has one session at a time. Here any number of processes call `get_cf_specs(cache=...)` on the same files, and the operating system may
switch from one to another between any two system calls. The cache file is a sequence of bytes. The configuration files do not
change; `s0` is what `CFSpecs()` builds from them and `dump` the bytes that `pickle.dump` writes for it. Opening a file for writing truncates it; a write goes at the position of
the writer, after null bytes if the file has been truncated by another process meanwhile; a removed file is still there for the processes that have opened it. `load` is `pickle.load` followed by the
assertion of `set_cf_specs`, `none` being an exception. The directory of the file exists.
-/

namespace Xoa

/-- the point that a call has reached, i.e. its next system call -/
inductive CPoint (β : Type)
  /-- not in a call -/
  | idle
  /-- start of the call, xoa/cf.py:2399 -/
  | start (mode : CacheMode)
  /-- `os.path.exists(USER_CF_CACHE_FILE)`, :2403 -/
  | exists_
  /-- `os.stat(USER_CF_CACHE_FILE)`, :2405 -/
  | stat
  /-- `open(USER_CF_CACHE_FILE, "rb")`, :2408 -/
  | openr
  /-- `pickle.load(f)`, :2409: the opened file and the bytes read so far -/
  | reading (ino : Nat) (acc : List β)
  /-- `set_cf_specs(CFSpecs())`, :2419 -/
  | build (mode : CacheMode)
  /-- `open(USER_CF_CACHE_FILE, "wb")`, :2427 -/
  | openw (mode : CacheMode)
  /-- `pickle.dump(_CACHE["specs"], f)`, :2428: the opened file and the number of bytes written so far -/
  | writing (mode : CacheMode) (ino : Nat) (pos : Nat)
  /-- end of the call, :2432 -/
  | finish (mode : CacheMode)
  /-- `os.path.exists(USER_CF_CACHE_FILE)` in `reset_cache`, :2355 -/
  | cleanExists
  /-- `os.remove(USER_CF_CACHE_FILE)`, :2356 -/
  | remove

/-- a process: `_CACHE["specs"]` and the point of its current call -/
structure CProc (β S : Type) where
  mem : Option S
  at_ : CPoint β

inductive CErr2
  | fileNotFound
  deriving DecidableEq, Repr

/-- the outcome of a call: the process, the mode and the result -/
structure COut (S : Type) where
  proc : Nat
  mode : CacheMode
  result : Except CErr2 S

/-- the processes, the files (time of the last change and bytes), the one that has the name of the cache file, and the outcomes of the calls that have ended -/
structure CSys (β S : Type) where
  procs : Nat → CProc β S
  files : Nat → Nat × List β
  path : Option Nat
  next : Nat
  clock : Nat
  log : List (COut S)

/-- what happens next -/
inductive CEvent
  /-- a process calls `get_cf_specs(cache=mode)` -/
  | call (p : Nat) (mode : CacheMode)
  /-- a process executes its next system call; reads and writes transfer up to `n + 1` bytes -/
  | run (p : Nat) (n : Nat)
  /-- a process is killed and started again -/
  | kill (p : Nat)
  | tick
  deriving DecidableEq

variable {β S : Type}

def CSys.setProc (st : CSys β S) (p : Nat) (c : CProc β S) : CSys β S := { st with procs := fun q => if q = p then c else st.procs q }

/-- the call goes on -/
def CSys.goto (st : CSys β S) (p : Nat) (at_ : CPoint β) : CSys β S := st.setProc p ⟨(st.procs p).mem, at_⟩

/-- the call ends -/
def CSys.ret (st : CSys β S) (p : Nat) (mode : CacheMode) (r : Except CErr2 S) : CSys β S :=
  { (st.goto p .idle) with log := st.log ++ [⟨p, mode, r⟩] }

/-- the call ends with the specifications in memory, :2436 (there are some at this point) -/
def CSys.retMem (st : CSys β S) (p : Nat) (mode : CacheMode) : CSys β S :=
  match (st.procs p).mem with
  | some s => st.ret p mode (.ok s)
  | none => st

def CSys.setFile (st : CSys β S) (i : Nat) (b : List β) : CSys β S := { st with files := fun j => if j = i then (st.clock, b) else st.files j }

/-- a write of `b` at a position: what is before is completed by null bytes if needed, what is after is kept -/
def writeAt (zero : β) (old : List β) (pos : Nat) (b : List β) : List β :=
  (old.take pos ++ List.replicate (pos - old.length) zero) ++ b ++ old.drop (pos + b.length)

/-- the next system call of a process, xoa/cf.py:2399-2436 and 2355-2356 -/
def cSyscall (zero : β) (dump : List β) (s0 : S) (load : List β → Option S) (pkgTime : Nat) (p n : Nat) (st : CSys β S) : CSys β S :=
  match (st.procs p).at_ with
  | .idle => st
  | .start mode =>
    if (st.procs p).mem.isSome then st.goto p (.finish mode)
    else if mode = .read then st.goto p .exists_
    else st.goto p (.build mode)
  | .exists_ => if st.path.isSome then st.goto p .stat else st.goto p (.build .read)
  | .stat =>
    match st.path with
    | none => st.ret p .read (.error .fileNotFound)
    | some i => if pkgTime < (st.files i).1 then st.goto p .openr else st.goto p (.build .read)
  | .openr =>
    match st.path with
    | none => st.goto p (.build .read)
    | some i => st.goto p (.reading i [])
  | .reading i acc =>
    if acc.length < (st.files i).2.length then st.goto p (.reading i (acc ++ ((st.files i).2.drop acc.length).take (n + 1)))
    else match load acc with
      | some s => st.setProc p ⟨some s, .finish .read⟩
      | none => st.goto p (.build .read)
  | .build mode => st.setProc p ⟨some s0, if mode = .write ∨ mode = .rw then .openw mode else .finish mode⟩
  | .openw mode =>
    match st.path with
    | some i => (st.setFile i []).goto p (.writing mode i 0)
    | none => ({ (st.setFile st.next []) with path := some st.next, next := st.next + 1 } : CSys β S).goto p (.writing mode st.next 0)
  | .writing mode i pos =>
    if pos < dump.length then
      (st.setFile i (writeAt zero (st.files i).2 pos ((dump.drop pos).take (n + 1)))).goto p (.writing mode i (pos + ((dump.drop pos).take (n + 1)).length))
    else st.goto p (.finish mode)
  | .finish mode => if mode = .clean then st.goto p .cleanExists else st.retMem p mode
  | .cleanExists => if st.path.isSome then st.goto p .remove else st.retMem p .clean
  | .remove =>
    match st.path with
    | none => st.ret p .clean (.error .fileNotFound)
    | some _ => ({ st with path := none } : CSys β S).retMem p .clean

def cStep (zero : β) (dump : List β) (s0 : S) (load : List β → Option S) (pkgTime : Nat) (e : CEvent) (st : CSys β S) : CSys β S :=
  match e with
  | .call p mode => match (st.procs p).at_ with
    | .idle => st.goto p (.start mode)
    | _ => st
  | .run p n => cSyscall zero dump s0 load pkgTime p n st
  | .kill p => st.setProc p ⟨none, .idle⟩
  | .tick => { st with clock := st.clock + 1 }

def cRun (zero : β) (dump : List β) (s0 : S) (load : List β → Option S) (pkgTime : Nat) : List CEvent → CSys β S → CSys β S
  | [], st => st
  | e :: es, st => cRun zero dump s0 load pkgTime es (cStep zero dump s0 load pkgTime e st)

/-- no process in a call and no cache file -/
def CSys.init : CSys β S := ⟨fun _ => ⟨none, .idle⟩, fun _ => (0, []), none, 0, 0, []⟩

end Xoa
