import Verif.CfCache

/-! # The cache file of the specifications (C145) -/

namespace Xoa

variable {C S : Type}

/-- **C145** (effects on the file): the mode `clean` removes the cache file; the first call of a session in the modes `write` and `rw` stores
in it the specifications of the current configuration, dated of now; the other calls, and the calls that find the specifications in memory, do
not touch it. -/
theorem C145_file_partial (build : C → C → S) (mode : CacheMode) (w : World C S) :
    (mode = .clean → (getCfSpecs build mode w).1.disk = none) ∧
    ((mode = .write ∨ mode = .rw) → w.memory = none →
      (getCfSpecs build mode w).1.disk = some { mtime := w.clock, content := some (build w.pkg w.user) }) ∧
    ((mode = .write ∨ mode = .rw) → w.memory ≠ none → (getCfSpecs build mode w).1.disk = w.disk) ∧
    ((mode = .ignore ∨ mode = .read) → (getCfSpecs build mode w).1.disk = w.disk) := by
  refine ⟨?_, ?_, ?_, ?_⟩
  · rintro rfl
    simp [getCfSpecs]
  · intro hm h0
    rcases hm with rfl | rfl <;> simp [getCfSpecs, h0, readDisk]
  · intro hm h0
    cases h : w.memory with
    | none => exact absurd h h0
    | some s => rcases hm with rfl | rfl <;> simp [getCfSpecs, h]
  · intro hm
    cases h : w.memory with
    | some s => rcases hm with rfl | rfl <;> simp [getCfSpecs, h]
    | none =>
      rcases hm with rfl | rfl
      · simp [getCfSpecs, h, readDisk]
      · simp only [getCfSpecs, h]
        cases readDisk CacheMode.read w <;> simp

/-- nothing else than the memory and the cache file is changed -/
theorem C145_frame_partial (build : C → C → S) (mode : CacheMode) (w : World C S) :
    (getCfSpecs build mode w).1.clock = w.clock ∧ (getCfSpecs build mode w).1.pkg = w.pkg ∧
    (getCfSpecs build mode w).1.pkgTime = w.pkgTime ∧ (getCfSpecs build mode w).1.user = w.user := by
  unfold getCfSpecs
  cases w.memory with
  | some s => simp only; split <;> exact ⟨rfl, rfl, rfl, rfl⟩
  | none =>
    cases readDisk mode w with
    | some s => simp only; split <;> exact ⟨rfl, rfl, rfl, rfl⟩
    | none => simp only; split <;> split <;> exact ⟨rfl, rfl, rfl, rfl⟩

/-- **C145** (use of the file): the specifications stored by a session in the modes `write` or `rw` are those that a later session in the mode
`read` returns, without building them again (`build'` is any other way of building them, and the user file may have changed). -/
theorem C145_read_back_partial (build build' : C → C → S) (mode : CacheMode) (hm : mode = .write ∨ mode = .rw) (w : World C S) (h0 : w.memory = none)
    (ht : w.pkgTime < w.clock) (c : C) :
    (getCfSpecs build' .read (cfRun build [.get mode, .newSession, .editUser c] w)).2 = build w.pkg w.user := by
  have hd := (C145_file_partial build mode w).2.1 hm h0
  have hf := C145_frame_partial build mode w
  have : readDisk .read (cfRun build [.get mode, .newSession, .editUser c] w) = some (build w.pkg w.user) := by
    simp only [cfRun, List.foldl_cons, List.foldl_nil, cfStep, readDisk, if_true, hd, hf.2.2.1]
    rw [if_pos ht]
  have hmem : (cfRun build [.get mode, .newSession, .editUser c] w).memory = none := rfl
  simp [getCfSpecs, hmem, this]

/-- **C145 is violated** by the mode `rw`, which is also that of `cache=True`: it never reads the file. Whatever a file up to date has, each session
builds the specifications again and overwrites the file. -/
theorem C145_rw_violated (build : C → C → S) (w : World C S) (h0 : w.memory = none) (f : CacheFile S) (s : S) (hd : w.disk = some f)
    (ht : w.pkgTime < f.mtime) (hs : f.content = some s) :
    (getCfSpecs build .read w).2 = s ∧ (getCfSpecs build .rw w).2 = build w.pkg w.user ∧
    (getCfSpecs build .rw w).1.disk = some { mtime := w.clock, content := some (build w.pkg w.user) } := by
  refine ⟨?_, ?_, (C145_file_partial build .rw w).2.1 (Or.inr rfl) h0⟩
  · have : readDisk .read w = some s := by simp [readDisk, hd, ht, hs]
    simp [getCfSpecs, h0, this]
  · simp [getCfSpecs, h0, readDisk]

/-- the hypotheses are met: a session stores the specifications after the installation of the library -/
example : let w := cfRun (fun p u : Nat => (p, u)) [.tick, .get .rw, .newSession] (World.init 1 2)
    w.memory = none ∧ w.pkgTime < w.clock ∧ w.disk = some ⟨1, some (1, 2)⟩ :=
  ⟨rfl, Nat.zero_lt_one, rfl⟩

end Xoa
