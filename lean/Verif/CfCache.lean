import Mathlib.Tactic.Tauto

/-!
# Model of the specification caches: get_cf_specs, reset_cache (xoa/cf.py:2342-2432)

The file system is modelled by the modification time and the contents of the packaged
configuration file, of the user configuration file and of the cache file. The contents of the
cache file are either a pickle that loads as some specifications, or anything else (truncated
by a crash, other data), for which `pickle.load` or the assertion in `set_cf_specs` raises.
Simplifications: building the specifications is an arbitrary function of the two
configuration files (repeatability inside a session is property C46); writing errors
(caught at xoa/cf.py:2430) leave the cache file unchanged; the selection of an item by
`name` and `category` (xoa/cf.py:2437-2453) is not part of this model; the clock does not
go backwards.
-/

namespace Xoa

/-- `cache` argument of `get_cf_specs`, xoa/cf.py:2391-2396 -/
inductive CacheMode
  | ignore | rw | read | write | clean
  deriving DecidableEq, Repr

structure CacheFile (S : Type) where
  mtime : Nat
  /-- `none`: cannot be loaded -/
  content : Option S

structure World (C S : Type) where
  clock : Nat
  pkg : C
  pkgTime : Nat
  user : C
  /-- `_CACHE["specs"]` -/
  memory : Option S
  /-- `USER_CF_CACHE_FILE` -/
  disk : Option (CacheFile S)

variable {C S : Type}

/-- `set_cf_specs(pickle.load(f))` when the file exists and is newer than the packaged
configuration, xoa/cf.py:2402-2413. Note that the mode `"rw"` does not read. -/
def readDisk (mode : CacheMode) (w : World C S) : Option S :=
  if mode = .read then
    match w.disk with
    | some f => if w.pkgTime < f.mtime then f.content else none
    | none => none
  else none

/-- `get_cf_specs(cache=mode)`, xoa/cf.py:2399-2436: the new state and the specifications
returned -/
def getCfSpecs (build : C → C → S) (mode : CacheMode) (w : World C S) : World C S × S :=
  let r : World C S × S := match w.memory with
    | some s => (w, s)
    | none => match readDisk mode w with
      | some s => ({ w with memory := some s }, s)
      | none =>
        let s := build w.pkg w.user
        -- :2424-2431
        if mode = .write ∨ mode = .rw then
          ({ w with memory := some s, disk := some { mtime := w.clock, content := some s } }, s)
        else ({ w with memory := some s }, s)
  -- :2433-2434
  if mode = .clean then ({ r.1 with disk := none }, r.2) else r

/-- events that change the state between two calls -/
inductive CfEvent (C S : Type)
  | get (mode : CacheMode)
  /-- a new python session -/
  | newSession
  /-- the process dies while writing the cache file -/
  | crashWriting
  /-- something writes garbage in the cache file -/
  | corrupt
  /-- the cache file is removed, `reset_cache()` -/
  | removeCache
  /-- the packaged configuration changes (upgrade of the library) -/
  | upgrade (c : C)
  /-- the user edits its own configuration file -/
  | editUser (c : C)
  /-- time passes -/
  | tick

def cfStep (build : C → C → S) (e : CfEvent C S) (w : World C S) : World C S :=
  match e with
  | .get mode => (getCfSpecs build mode w).1
  | .newSession => { w with memory := none }
  | .crashWriting => { w with memory := none, disk := some { mtime := w.clock, content := none } }
  | .corrupt => { w with disk := some { mtime := w.clock, content := none } }
  | .removeCache => { w with disk := none }
  | .upgrade c => { w with pkg := c, pkgTime := w.clock, memory := none }
  | .editUser c => { w with user := c }
  | .tick => { w with clock := w.clock + 1 }

def cfRun (build : C → C → S) (es : List (CfEvent C S)) (w : World C S) : World C S :=
  es.foldl (fun w e => cfStep build e w) w

/-- the state of a first session, without cache file -/
def World.init (c u : C) : World C S := { clock := 0, pkg := c, pkgTime := 0, user := u, memory := none, disk := none }

/-! ## Theorems -/

/-- a cache file that would be read holds the specifications of the current configuration -/
def diskOk (build : C → C → S) (w : World C S) : Prop :=
  ∀ f, w.disk = some f → f.mtime ≤ w.clock ∧ ∀ s, w.pkgTime < f.mtime → f.content = some s → s = build w.pkg w.user

theorem diskOk_get (build : C → C → S) (mode : CacheMode) (w : World C S) (h : diskOk build w) :
    diskOk build (getCfSpecs build mode w).1 := by
  unfold getCfSpecs
  simp only
  split
  · intro f hf; cases hf
  · cases w.memory with
    | some s => exact h
    | none =>
      simp only
      cases readDisk mode w with
      | some s => exact h
      | none =>
        simp only
        split
        · intro f hf
          simp only [Option.some.injEq] at hf
          subst hf
          exact ⟨Nat.le_refl _, fun s _ hs => by simpa using hs.symm⟩
        · exact h

theorem diskOk_step (build : C → C → S) (e : CfEvent C S) (he : ∀ c, e ≠ .editUser c) (w : World C S)
    (h : diskOk build w) : diskOk build (cfStep build e w) := by
  cases e with
  | get mode => exact diskOk_get build mode w h
  | newSession => exact h
  | crashWriting =>
    intro f hf
    simp only [cfStep, Option.some.injEq] at hf
    subst hf
    exact ⟨Nat.le_refl _, fun s _ hs => by cases hs⟩
  | corrupt =>
    intro f hf
    simp only [cfStep, Option.some.injEq] at hf
    subst hf
    exact ⟨Nat.le_refl _, fun s _ hs => by cases hs⟩
  | removeCache => intro f hf; cases hf
  | upgrade c =>
    intro f hf
    have := h f hf
    refine ⟨this.1, fun s hlt _ => ?_⟩
    simp only [cfStep] at hlt
    omega
  | editUser c => exact absurd rfl (he c)
  | tick =>
    intro f hf
    have := h f hf
    exact ⟨by simp only [cfStep]; omega, this.2⟩

theorem diskOk_run (build : C → C → S) (es : List (CfEvent C S)) (he : ∀ e ∈ es, ∀ c, e ≠ CfEvent.editUser c)
    (w : World C S) (h : diskOk build w) : diskOk build (cfRun build es w) := by
  unfold cfRun
  induction es generalizing w with
  | nil => exact h
  | cons e es ih =>
    rw [List.foldl_cons]
    exact ih (fun e' h' => he e' (List.mem_cons_of_mem _ h')) _ (diskOk_step build e (he e (by simp)) w h)

/-- **C48** (default and other non reading modes): in a new session the specifications are
those of the current configuration files, whatever the cache file is: absent, up to date,
stale, or truncated by a crash. -/
theorem C48_not_reading (build : C → C → S) (w : World C S) (hm : w.memory = none) (mode : CacheMode)
    (hmode : mode ≠ .read) : (getCfSpecs build mode w).2 = build w.pkg w.user := by
  simp only [getCfSpecs, hm, readDisk, if_neg hmode]
  split <;> split <;> rfl

/-- **C48**: after every history of calls in any modes, sessions,
crashes while writing, corruptions, removals and upgrades of the library, in which the user
configuration file is not edited, a new session gets in every mode the specifications of
the current configuration. (Edits of the user file: C93, see below.) -/
theorem C48_every_history (build : C → C → S) (c u : C) (es : List (CfEvent C S))
    (he : ∀ e ∈ es, ∀ c, e ≠ CfEvent.editUser c) (mode : CacheMode) :
    let w := cfRun build (es ++ [.newSession]) (World.init c u)
    (getCfSpecs build mode w).2 = build w.pkg w.user := by
  intro w
  have hm : w.memory = none := by
    simp only [w, cfRun, List.foldl_append, List.foldl_cons, List.foldl_nil, cfStep]
  by_cases hmode : mode = .read
  · subst hmode
    have hok : diskOk build w := diskOk_run build _ (by
      intro e h
      rcases List.mem_append.1 h with h | h
      · exact he e h
      · simp only [List.mem_singleton] at h; subst h; intro c h; cases h) _ (by intro f hf; cases hf)
    simp only [getCfSpecs, hm, readDisk, if_true]
    cases hd : w.disk with
    | none => simp
    | some f =>
      simp only
      by_cases hlt : w.pkgTime < f.mtime
      · rw [if_pos hlt]
        cases hc : f.content with
        | none => simp
        | some s => simpa using (hok f hd).2 s hlt hc
      · rw [if_neg hlt]; simp
  · exact C48_not_reading build w hm mode hmode

/-- **C48** (stability in a session): once specifications are in memory, every mode returns
them, and keeps them in memory. -/
theorem C48_memory (build : C → C → S) (w : World C S) (s : S) (hm : w.memory = some s) (mode : CacheMode) :
    (getCfSpecs build mode w).2 = s ∧ (getCfSpecs build mode w).1.memory = some s := by
  simp only [getCfSpecs, hm]
  split <;> simp [hm]

/-- **C48** (agreement): two successive calls in one session return the same specifications,
whatever the two modes and the initial state. -/
theorem C48_successive (build : C → C → S) (w : World C S) (m1 m2 : CacheMode) :
    (getCfSpecs build m2 (getCfSpecs build m1 w).1).2 = (getCfSpecs build m1 w).2 := by
  have : (getCfSpecs build m1 w).1.memory = some (getCfSpecs build m1 w).2 := by
    cases hm : w.memory with
    | some s => rw [(C48_memory build w s hm m1).1, (C48_memory build w s hm m1).2]
    | none =>
      simp only [getCfSpecs, hm]
      cases readDisk m1 w with
      | some s => simp only; split <;> rfl
      | none => simp only; split <;> split <;> rfl
  exact (C48_memory build _ _ this m2).1

/-- **C93**: after every history, including edits of the user file, a new session gets the specifications of the current files in all the modes
but the reading one; in the reading mode it does if and only if the cache file is not read or has these specifications. -/
theorem C93_current_partial (build : C → C → S) (c u : C) (es : List (CfEvent C S)) :
    let w := cfRun build (es ++ [.newSession]) (World.init c u)
    (∀ mode, mode ≠ .read → (getCfSpecs build mode w).2 = build w.pkg w.user) ∧
    ((getCfSpecs build .read w).2 = build w.pkg w.user ↔
      ∀ f s, w.disk = some f → w.pkgTime < f.mtime → f.content = some s → s = build w.pkg w.user) := by
  intro w
  have hm : w.memory = none := by
    simp only [w, cfRun, List.foldl_append, List.foldl_cons, List.foldl_nil, cfStep]
  refine ⟨fun mode h => C48_not_reading build w hm mode h, ?_⟩
  simp only [getCfSpecs, hm, readDisk, if_true]
  cases hd : w.disk with
  | none => simp
  | some f =>
    simp only
    by_cases hlt : w.pkgTime < f.mtime
    · rw [if_pos hlt]
      cases hc : f.content with
      | none =>
        refine ⟨fun _ f' s' hf _ hs' => ?_, fun _ => rfl⟩
        cases hf
        rw [hc] at hs'
        cases hs'
      | some s =>
        refine ⟨fun h f' s' hf _ hs' => ?_, fun h => h f s rfl hlt hc⟩
        cases hf
        rw [hc] at hs'
        cases hs'
        exact h
    · rw [if_neg hlt]
      refine ⟨fun _ f' s' hf hl _ => ?_, fun _ => rfl⟩
      cases hf
      exact absurd hl hlt

/-- **C93 is violated** by the reading mode whatever the user writes in the configuration file: a session that follows the edit returns the
specifications of the cache file. -/
theorem C93_edit_ignored_violated (build : C → C → S) (w : World C S) (f : CacheFile S) (s : S) (hd : w.disk = some f) (hlt : w.pkgTime < f.mtime)
    (hs : f.content = some s) (c : C) : (getCfSpecs build .read (cfRun build [.editUser c, .newSession] w)).2 = s := by
  simp [cfRun, cfStep, getCfSpecs, readDisk, hd, hlt, hs]

/-- **C93 is violated** by the reading mode: the age of the user configuration file is not
looked at, so that specifications built before it was edited are returned. -/
theorem C93_user_file_violated :
    let build : Nat → Nat → Nat × Nat := fun p u => (p, u)
    let w := cfRun build [.tick, .get .rw, .editUser 5, .newSession] (World.init 1 2)
    (getCfSpecs build .read w).2 = (1, 2) ∧ (getCfSpecs build .rw w).2 = (1, 5) := by
  decide +kernel

/-- a history meeting the hypotheses, in which the cache file is really read -/
example : let build : Nat → Nat → Nat × Nat := fun p u => (p, u)
    let es : List (CfEvent Nat (Nat × Nat)) := [.tick, .get .rw, .crashWriting, .get .read, .newSession, .get .write, .upgrade 3, .tick, .get .rw]
    let w := cfRun build (es ++ [.newSession]) (World.init 1 2)
    readDisk .read w = some (3, 2) := by
  decide +kernel
example : let es : List (CfEvent Nat (Nat × Nat)) := [.tick, .get .rw, .crashWriting, .upgrade 3]
    ∀ e ∈ es, ∀ c, e ≠ CfEvent.editUser c := by
  intro es e he c
  simp only [es, List.mem_cons, List.not_mem_nil, or_false] at he
  rcases he with h | h | h | h <;> rw [h] <;> simp

end Xoa
