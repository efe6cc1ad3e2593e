import Verif.CfgmToolsProps

/-! # C217: a reset that is interrupted and run again -/

namespace Xoa

/-- the file systems that can be met when `reset(f, backup=True)` is run again and again on `fs`, each run being interrupted anywhere or ending, and `P` holding after each interruption -/
inductive ResetHist (dflt f : Str) (P : FS → Prop) (fs : FS) : FS → Prop
  | none : ResetHist dflt f P fs fs
  | again (s s' : FS) (h : ResetHist dflt f P fs s) (hs : s' ∈ resetStates true dflt f s) (hp : P s') : ResetHist dflt f P fs s'

/-- the new file has not been opened yet -/
def NotWriting (f old : Str) (s : FS) : Prop := s f = some old ∨ s f = none

theorem reset_none (dflt f old : Str) (s s' : FS) (hf : s f = none) (hb : s (bakOf f) = some old) (hs : s' ∈ resetStates true dflt f s) : s' (bakOf f) = some old := by
  unfold resetStates at hs
  rw [hf] at hs
  rcases List.mem_cons.mp hs with rfl | hs
  · exact hb
  · rw [mem_writeStates _ _ _ _ hs _ (bakOf_ne f)]; exact hb

/-- **C217** (interruptions before the writing): if a reset with a backup is run any number of times, interrupted each time before the new file is opened, the previous contents are in the file, or in the backup when the file is not there;
and so they are at each moment of one more run, whether it is interrupted, anywhere, or not. -/
theorem C217_kept_partial (dflt f old : Str) (fs s : FS) (h : fs f = some old) (hs : ResetHist dflt f (NotWriting f old) fs s) :
    (s f = some old ∨ (s f = none ∧ s (f ++ ".bak".toList) = some old)) ∧
    ∀ s' ∈ resetStates true dflt f s, s' f = some old ∨ s' (f ++ ".bak".toList) = some old := by
  have key : ∀ s, (s f = some old ∨ (s f = none ∧ s (bakOf f) = some old)) → ∀ s' ∈ resetStates true dflt f s, s' f = some old ∨ s' (bakOf f) = some old := by
    intro s hs s' hs'
    rcases hs with hs | ⟨h1, h2⟩
    · exact C134_crash_safe dflt f old s hs s' hs'
    · exact Or.inr (reset_none dflt f old s s' h1 h2 hs')
  have inv : s f = some old ∨ (s f = none ∧ s (bakOf f) = some old) := by
    induction hs with
    | none => exact Or.inl h
    | again s s' _ hs' hp ih =>
      rcases hp with hp | hp
      · exact Or.inl hp
      · rcases key s ih s' hs' with e | e
        · exact Or.inl e
        · exact Or.inr ⟨hp, e⟩
  exact ⟨inv, key s inv⟩

/-- **C217** (the last run ends): then the file has the default configuration and the backup the previous contents. -/
theorem C217_final_partial (dflt f old : Str) (fs s : FS) (h : fs f = some old) (hs : ResetHist dflt f (NotWriting f old) fs s) :
    resetFS true dflt f s f = some dflt ∧ resetFS true dflt f s (f ++ ".bak".toList) = some old := by
  refine ⟨(C134_final true dflt f s).1, ?_⟩
  rcases (C217_kept_partial dflt f old fs s h hs).1 with e | ⟨e1, e2⟩
  · exact (C134_final true dflt f s).2 rfl old e
  · show resetFS true dflt f s (bakOf f) = some old
    refine reset_none dflt f old s _ e1 e2 ?_
    unfold resetFS
    cases hl : (resetStates true dflt f s).getLast? with
    | none => rw [List.getLast?_eq_none_iff] at hl; unfold resetStates at hl; rw [e1] at hl; cases hl
    | some x => exact List.mem_of_getLast? hl

/-- **C217** violated: if a reset is interrupted just after the new file has been opened, it is enough to run it again for the previous contents to be lost, the backup being replaced by the unfinished file, for any contents that are
neither empty nor the default configuration. -/
theorem C217_lost_violated (dflt f old : Str) (fs : FS) (h : fs f = some old) (h1 : old ≠ []) (h2 : old ≠ dflt) :
    ∃ s, ResetHist dflt f (fun _ => True) fs s ∧ ∀ q, s q = some old → q ≠ f ∧ q ≠ f ++ ".bak".toList ∧ fs q = some old := by
  let s1 : FS := (afterRemove true f old fs).put f (some [])
  have m1 : s1 ∈ resetStates true dflt f fs := by
    unfold resetStates
    rw [h]
    refine List.mem_cons_of_mem _ (List.mem_append_right _ (List.mem_map.2 ⟨[], ?_, rfl⟩))
    exact (List.mem_inits [] dflt).2 List.nil_prefix
  have hs1 : s1 f = some [] := put_same _ _ _
  have m2 : resetFS true dflt f s1 ∈ resetStates true dflt f s1 := by
    unfold resetFS
    cases hl : (resetStates true dflt f s1).getLast? with
    | none => rw [List.getLast?_eq_none_iff] at hl; unfold resetStates at hl; rw [hs1] at hl; cases hl
    | some x => exact List.mem_of_getLast? hl
  refine ⟨resetFS true dflt f s1, .again s1 _ (.again fs s1 .none m1 trivial) m2 trivial, ?_⟩
  obtain ⟨e1, e2⟩ := C134_final true dflt f s1
  have e3 := e2 rfl [] hs1
  intro q hq
  have q1 : q ≠ f := by
    rintro rfl
    rw [e1] at hq
    exact h2 (Option.some.inj hq).symm
  have q2 : q ≠ f ++ ".bak".toList := by
    rintro rfl
    rw [e3] at hq
    exact h1 (Option.some.inj hq).symm
  refine ⟨q1, q2, ?_⟩
  rw [C134_others true dflt f s1 _ m2 q q1 (fun _ _ => q2), C134_others true dflt f fs _ m1 q q1 (fun _ _ => q2)] at hq
  exact hq

/-- the hypotheses are met: a run that is interrupted between the removal and the writing -/
example : ResetHist "b".toList "config.cfg".toList (NotWriting "config.cfg".toList "a=1".toList) exFS (afterRemove true "config.cfg".toList "a=1".toList exFS) := by
  refine .again exFS _ .none ?_ (Or.inr ?_)
  · unfold resetStates
    rw [show exFS "config.cfg".toList = some "a=1".toList from by decide +kernel]
    exact List.mem_cons_of_mem _ (List.mem_append_left _ (List.mem_append_right _ (List.mem_singleton.2 rfl)))
  · decide +kernel

end Xoa
