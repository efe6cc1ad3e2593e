import Verif.CfgmTools
import Verif.MiscFilterProps
import Verif.CfInheritLemmas
import Verif.ArgParseProps
import Mathlib.Data.List.SplitOn
import Mathlib.Data.List.Infix

/-! # C134: reset of a file; C135: registry of the types; C136: removal of the defaults; C137: paths; C138: wrapped validators -/

namespace Xoa

/-! ## C134 -/

theorem bakOf_ne (f : Str) : bakOf f ≠ f := by
  intro h
  have := congrArg List.length h
  simp [bakOf] at this

theorem put_same (fs : FS) (p : Str) (c : Option Str) : fs.put p c p = c := by simp [FS.put]

theorem put_other (fs : FS) (p q : Str) (c : Option Str) (h : q ≠ p) : fs.put p c q = fs q := by simp [FS.put, h]

theorem mem_writeStates (p data : Str) (fs s : FS) (h : s ∈ writeStates p data fs) (q : Str) (hq : q ≠ p) : s q = fs q := by
  obtain ⟨c, -, rfl⟩ := List.mem_map.mp h
  exact put_other fs p q _ hq

theorem writeStates_last (p data : Str) (fs : FS) : (writeStates p data fs).getLast? = some (fs.put p (some data)) := by
  unfold writeStates
  rw [List.getLast?_map]
  have : data.inits.getLast? = some data := by
    rw [List.inits_eq_tails, List.getLast?_reverse, List.head?_map]
    have : data.reverse.tails.head? = some data.reverse := by cases data.reverse <;> rfl
    rw [this]; simp
  rw [this]; rfl

/-- **C134.** Whenever a reset with a backup is interrupted, the previous contents of the file are in the file or in its backup. -/
theorem C134_crash_safe (dflt f old : Str) (fs : FS) (h : fs f = some old) (s : FS) (hs : s ∈ resetStates true dflt f fs) :
    s f = some old ∨ s (f ++ ".bak".toList) = some old := by
  show s f = some old ∨ s (bakOf f) = some old
  unfold resetStates at hs
  rw [h] at hs
  simp only [List.mem_cons, List.mem_append, removeStates, afterRemove, if_true, List.not_mem_nil, or_false] at hs
  rcases hs with rfl | (hs | rfl) | hs
  · exact Or.inl h
  · left
    rw [mem_writeStates _ _ _ _ hs f (bakOf_ne f).symm, h]
  · right
    rw [put_other _ _ _ _ (bakOf_ne f), put_same]
  · right
    rw [mem_writeStates _ _ _ _ hs _ (bakOf_ne f), put_other _ _ _ _ (bakOf_ne f), put_same]

/-- **C134.** No other file is changed, at any time; and the file of the backup is not changed without backup, or when
there is nothing to save. -/
theorem C134_others (backup : Bool) (dflt f : Str) (fs : FS) (s : FS) (hs : s ∈ resetStates backup dflt f fs) (q : Str) (hq : q ≠ f)
    (hb : backup = true → fs f ≠ none → q ≠ f ++ ".bak".toList) : s q = fs q := by
  unfold resetStates at hs
  cases h : fs f with
  | none =>
    rw [h] at hs
    rcases List.mem_cons.mp hs with rfl | hs
    · rfl
    · exact mem_writeStates _ _ _ _ hs q hq
  | some old =>
    rw [h] at hs
    cases backup with
    | true =>
      have hb : q ≠ bakOf f := hb rfl (by rw [h]; simp)
      simp only [List.mem_cons, List.mem_append, removeStates, afterRemove, if_true, List.not_mem_nil, or_false] at hs
      rcases hs with rfl | (hs | rfl) | hs
      · rfl
      · exact mem_writeStates _ _ _ _ hs q hb
      · rw [put_other _ _ _ _ hq, put_other _ _ _ _ hb]
      · rw [mem_writeStates _ _ _ _ hs q hq, put_other _ _ _ _ hq, put_other _ _ _ _ hb]
    | false =>
      simp only [List.mem_cons, List.mem_append, removeStates, afterRemove, Bool.false_eq_true, if_false, List.nil_append, List.not_mem_nil, or_false] at hs
      rcases hs with rfl | rfl | hs
      · rfl
      · rw [put_other _ _ _ _ hq]
      · rw [mem_writeStates _ _ _ _ hs q hq, put_other _ _ _ _ hq]

theorem resetFS_eq (backup : Bool) (dflt f : Str) (fs : FS) :
    resetFS backup dflt f fs = ((fs f).elim fs (fun old => afterRemove backup f old fs)).put f (some dflt) := by
  unfold resetFS resetStates
  cases h : fs f with
  | none =>
    show ((fs :: writeStates f dflt fs).getLast?).getD fs = _
    rw [show fs :: writeStates f dflt fs = [fs] ++ writeStates f dflt fs from rfl, List.getLast?_append, writeStates_last]
    rfl
  | some old =>
    show ((fs :: (removeStates backup f old fs ++ writeStates f dflt (afterRemove backup f old fs))).getLast?).getD fs = _
    rw [← List.cons_append, List.getLast?_append, writeStates_last]
    rfl

/-- **C134.** After the reset, the file has the default configuration, and with a backup, the previous contents are in the backup. -/
theorem C134_final (backup : Bool) (dflt f : Str) (fs : FS) :
    resetFS backup dflt f fs f = some dflt ∧ (backup = true → ∀ old, fs f = some old → resetFS backup dflt f fs (f ++ ".bak".toList) = some old) := by
  rw [resetFS_eq]
  refine ⟨put_same _ _ _, ?_⟩
  rintro rfl old h
  show _ = some old
  rw [h]
  show FS.put _ f _ (bakOf f) = _
  rw [put_other _ _ _ _ (bakOf_ne f)]
  show afterRemove true f old fs (bakOf f) = _
  unfold afterRemove
  rw [if_pos rfl, put_other _ _ _ _ (bakOf_ne f), put_same]

/-- a file system with one file -/
def exFS : FS := fun p => if p = "config.cfg".toList then some "a=1".toList else none

/-- the hypotheses are met, and there are intermediate states: the file is there with its backup incomplete; it is not there any more -/
example : exFS "config.cfg".toList = some "a=1".toList ∧
    (resetStates true "b".toList "config.cfg".toList exFS).map (fun s => (s "config.cfg".toList, s "config.cfg.bak".toList)) =
      [(some "a=1".toList, none), (some "a=1".toList, some []), (some "a=1".toList, some "a".toList), (some "a=1".toList, some "a=".toList),
       (some "a=1".toList, some "a=1".toList), (none, some "a=1".toList), (some [], some "a=1".toList), (some "b".toList, some "a=1".toList)] := by decide +kernel

/-! ## C135 -/

theorem addForm_keeps (v : VSpec) (reg : VReg) (nk k : Str) (w : VSpec) (h : lookupS k reg = some w) : lookupS k (addForm v reg nk) = some w := by
  unfold addForm
  split
  · exact h
  · next hn =>
    rw [lookupS_setS]
    split
    · next e => subst e; rw [h] at hn; simp at hn
    · exact h

theorem addForm_other (v : VSpec) (reg : VReg) (nk k : Str) (h : k ≠ nk) : lookupS k (addForm v reg nk) = lookupS k reg := by
  unfold addForm
  split
  · rfl
  · rw [lookupS_setS, if_neg h]

theorem addForms_keeps (reg : VReg) (p : Str × VSpec) (k : Str) (w : VSpec) (h : lookupS k reg = some w) : lookupS k (addForms reg p) = some w :=
  addForm_keeps _ _ _ _ _ (addForm_keeps _ _ _ _ _ h)

theorem foldl_keeps (k : Str) (w : VSpec) : ∀ (l : List (Str × VSpec)) (reg : VReg), lookupS k reg = some w → lookupS k (l.foldl addForms reg) = some w
  | [], _, h => h
  | p :: l, reg, h => foldl_keeps k w l _ (addForms_keeps reg p k w h)

/-- **C135.** Updating the registry changes no type that is already there. -/
theorem C135_update_keeps (reg : VReg) (k : Str) (w : VSpec) (h : lookupS k reg = some w) : lookupS k (updateRegistry reg) = some w :=
  foldl_keeps k w reg reg h

theorem addForm_has (v : VSpec) (reg : VReg) (nk : Str) : (lookupS nk (addForm v reg nk)).isSome = true := by
  unfold addForm
  split
  · assumption
  · rw [lookupS_setS]; simp

theorem isSome_keeps {reg reg' : VReg} {k : Str} (hk : ∀ w, lookupS k reg = some w → lookupS k reg' = some w) (h : (lookupS k reg).isSome = true) :
    (lookupS k reg').isSome = true := by
  obtain ⟨w, hw⟩ := Option.isSome_iff_exists.mp h
  rw [hk w hw]; rfl

theorem addForms_has (reg : VReg) (p : Str × VSpec) :
    (lookupS (plural p.1) (addForms reg p)).isSome = true ∧ (lookupS (p.1 ++ "_list".toList) (addForms reg p)).isSome = true := by
  refine ⟨isSome_keeps (fun w h => addForm_keeps _ _ _ _ _ h) (addForm_has _ _ _), addForm_has _ _ _⟩

theorem foldl_has : ∀ (l : List (Str × VSpec)) (reg : VReg) (k : Str), k ∈ l.map (·.1) →
    (lookupS (plural k) (l.foldl addForms reg)).isSome = true ∧ (lookupS (k ++ "_list".toList) (l.foldl addForms reg)).isSome = true
  | [], _, _, h => by simp at h
  | p :: l, reg, k, h => by
    rw [List.map_cons, List.mem_cons] at h
    by_cases hk : k ∈ l.map (·.1)
    · exact foldl_has l _ k hk
    · have e : k = p.1 := h.resolve_right hk
      subst e
      have := addForms_has reg p
      exact ⟨isSome_keeps (fun w h => foldl_keeps _ w l _ h) this.1, isSome_keeps (fun w h => foldl_keeps _ w l _ h) this.2⟩

/-- **C135.** After an update, every type that was there has its plural form and its list form. -/
theorem C135_update_forms (reg : VReg) (k : Str) (h : (lookupS k reg).isSome = true) :
    (lookupS (plural k) (updateRegistry reg)).isSome = true ∧ (lookupS (k ++ "_list".toList) (updateRegistry reg)).isSome = true := by
  obtain ⟨w, hw⟩ := Option.isSome_iff_exists.mp h
  exact foldl_has reg reg k (List.mem_map.mpr ⟨_, mem_of_lookupS _ _ _ hw, rfl⟩)

theorem plural_getLast (k : Str) : (plural k).getLast? = some 's' := by
  unfold plural
  split
  · rw [List.getLast?_append]; rfl
  · split
    · rw [List.getLast?_append]; rfl
    · rw [List.getLast?_append]; rfl

theorem list_getLast (k : Str) : (k ++ "_list".toList).getLast? = some 't' := by
  rw [List.getLast?_append]; rfl

theorem list_ne_plural (k j : Str) : k ++ "_list".toList ≠ plural j := by
  intro h
  have := congrArg List.getLast? h
  rw [plural_getLast, list_getLast] at this
  exact absurd this (by decide)

/-- the list form of a type that has none yet is made from its validation function -/
theorem foldl_list_new (k : Str) (v : VSpec) : ∀ (l : List (Str × VSpec)) (reg : VReg), (∀ w, (k, w) ∈ l → w = v) →
    (lookupS (k ++ "_list".toList) reg = none ∨ lookupS (k ++ "_list".toList) reg = some { v with list := true }) → (k ∈ l.map (·.1) ∨ lookupS (k ++ "_list".toList) reg ≠ none) →
    lookupS (k ++ "_list".toList) (l.foldl addForms reg) = some { v with list := true }
  | [], reg, _, h, hk => by
    rcases h with h | h
    · rcases hk with hk | hk
      · simp at hk
      · exact absurd h hk
    · exact h
  | p :: l, reg, hl, h, hk => by
    show lookupS _ (l.foldl addForms (addForms reg p)) = _
    have step : lookupS (k ++ "_list".toList) (addForm p.2 reg (plural p.1)) = lookupS (k ++ "_list".toList) reg := addForm_other _ _ _ _ (list_ne_plural k p.1)
    rcases h with h | h
    · by_cases e : p.1 = k
      · have hv : p.2 = v := hl p.2 (by rw [← e]; exact List.mem_cons_self)
        have : lookupS (k ++ "_list".toList) (addForms reg p) = some { v with list := true } := by
          unfold addForms
          rw [e] at step ⊢
          unfold addForm at step ⊢
          rw [step, h]
          simp only [Option.isSome_none, Bool.false_eq_true, if_false]
          rw [lookupS_setS, if_pos rfl, hv]
        exact foldl_keeps _ _ l _ this
      · refine foldl_list_new k v l _ (fun w hw => hl w (List.mem_cons_of_mem _ hw)) (Or.inl ?_) ?_
        · unfold addForms
          have hne : k ++ "_list".toList ≠ p.1 ++ "_list".toList := by
            intro h'; exact e (List.append_cancel_right h').symm
          rw [addForm_other _ _ _ _ hne, step, h]
        · rcases hk with hk | hk
          · rw [List.map_cons, List.mem_cons] at hk
            rcases hk with hk | hk
            · exact absurd hk.symm e
            · exact Or.inl hk
          · exact absurd h hk
    · exact foldl_keeps _ _ l _ (addForms_keeps reg p _ _ h)

/-- the registry with the new functions, before the update -/
def withFns (reg : VReg) (fns : List (Str × Str)) : VReg := updateS reg (fns.map (fun p => (p.1, ⟨p.2, false⟩)))

theorem lookupS_map {α β : Type} (g : α → β) (k : Str) : ∀ l : List (Str × α), lookupS k (l.map (fun p => (p.1, g p.2))) = (lookupS k l).map g
  | [] => rfl
  | (k', v) :: l => by
    show (if k = k' then some (g v) else lookupS k (l.map _)) = _
    rw [lookupS_map g k l]
    show _ = Option.map g (if k = k' then some v else lookupS k l)
    split <;> rfl

theorem lookupS_withFns (reg : VReg) (fns : List (Str × Str)) (hn : (fns.map (·.1)).Nodup) (k : Str) :
    lookupS k (withFns reg fns) = ((lookupS k fns).map (fun f => (⟨f, false⟩ : VSpec))).or (lookupS k reg) := by
  unfold withFns
  rw [lookupS_updateS k _ _ (by rw [List.map_map]; exact hn)]
  rw [← lookupS_map (fun f => (⟨f, false⟩ : VSpec)) k fns]

theorem withFns_nodup (reg : VReg) (fns : List (Str × Str)) (hr : (reg.map (·.1)).Nodup) : ((withFns reg fns).map (·.1)).Nodup := by
  unfold withFns updateS
  induction (fns.map (fun p => (p.1, (⟨p.2, false⟩ : VSpec)))) generalizing reg with
  | nil => exact hr
  | cons p l ih => exact ih _ (setS_nodup _ _ _ hr)

/-- **C135.** The plural form: `y` becomes `ies`, `x` becomes `xes`, and an `s` is added to the other names. -/
theorem C135_plural (r : Str) (c : Char) :
    plural (r ++ [c]) = if c = 'y' then r ++ "ies".toList else if c = 'x' then r ++ "xes".toList else r ++ [c] ++ "s".toList := by
  unfold plural
  rw [List.getLast?_concat, List.dropLast_concat]
  by_cases h1 : c = 'y'
  · rw [if_pos (by rw [h1]), if_pos h1]
  · have : ¬ some c = some 'y' := fun h => h1 (Option.some.inj h)
    rw [if_neg this, if_neg h1]
    by_cases h2 : c = 'x'
    · subst h2
      rw [if_pos rfl, if_pos rfl, List.append_assoc]
      rfl
    · have : ¬ some c = some 'x' := fun h => h2 (Option.some.inj h)
      rw [if_neg this, if_neg h2]

/-- **C135.** Registering functions makes each of them the function of its type; the other types that are already there are not changed. -/
theorem C135_register (reg : VReg) (fns : List (Str × Str)) (hn : (fns.map (·.1)).Nodup) :
    (∀ k f, lookupS k fns = some f → lookupS k (registerFns reg fns) = some ⟨f, false⟩) ∧
    (∀ k w, lookupS k fns = none → lookupS k reg = some w → lookupS k (registerFns reg fns) = some w) := by
  refine ⟨fun k f h => ?_, fun k w h h2 => ?_⟩
  · apply C135_update_keeps
    show lookupS k (withFns reg fns) = _
    rw [lookupS_withFns reg fns hn, h]; rfl
  · apply C135_update_keeps
    show lookupS k (withFns reg fns) = _
    rw [lookupS_withFns reg fns hn, h, h2]; rfl

/-- **C135.** The list form of a new type uses the function of this type. -/
theorem C135_register_list_partial (reg : VReg) (hr : (reg.map (·.1)).Nodup) (fns : List (Str × Str)) (hn : (fns.map (·.1)).Nodup) (k f : Str)
    (hk : lookupS k fns = some f) (hnew : lookupS (k ++ "_list".toList) reg = none) (hnew' : lookupS (k ++ "_list".toList) fns = none) :
    lookupS (k ++ "_list".toList) (registerFns reg fns) = some ⟨f, true⟩ := by
  have hw : lookupS k (withFns reg fns) = some ⟨f, false⟩ := by rw [lookupS_withFns reg fns hn, hk]; rfl
  refine foldl_list_new k ⟨f, false⟩ _ (withFns reg fns) (fun w hw' => ?_) (Or.inl ?_) (Or.inl ?_)
  · have h2 := lookupS_of_mem_nodup _ _ _ (withFns_nodup reg fns hr) hw'
    rw [hw] at h2
    exact (Option.some.inj h2).symm
  · rw [lookupS_withFns reg fns hn, hnew, hnew']; rfl
  · exact List.mem_map.mpr ⟨_, mem_of_lookupS _ _ _ hw, rfl⟩

/-- **C135 is violated** (stale lists): registering another function for a type leaves its list form with the previous function. -/
theorem C135_stale_violated (reg : VReg) (k f g : Str) (_hk : lookupS k reg = some ⟨f, false⟩) (hl : lookupS (k ++ "_list".toList) reg = some ⟨f, true⟩) :
    lookupS k (registerFns reg [(k, g)]) = some ⟨g, false⟩ ∧ lookupS (k ++ "_list".toList) (registerFns reg [(k, g)]) = some ⟨f, true⟩ := by
  have h := C135_register reg [(k, g)] (by simp)
  refine ⟨h.1 k g (by simp [lookupS]), h.2 _ _ ?_ hl⟩
  have : k ++ "_list".toList ≠ k := by
    intro e
    have := congrArg List.length e
    simp at this
  unfold lookupS
  rw [if_neg this]
  rfl

/-- **C135 is violated** (growth): each call of `register_validation_functions`, even without function, makes list forms of all the types, including those that are already list forms: for
a type whose name does not end with `x` or `y`, there are `2 ^ n` new names after the `n`-th call, all those made with `n` endings among `s` and `_list`. -/
theorem C135_growth_violated (reg : VReg) (k : Str) (h : (lookupS k reg).isSome = true) (hx : k.getLast? ≠ some 'x') (hy : k.getLast? ≠ some 'y') :
    ∀ w : List Bool, (lookupS (k ++ (w.map (fun b => if b then "s".toList else "_list".toList)).flatten) (updates w.length reg)).isSome = true := by
  intro w
  have key : ∀ r : List Bool, (lookupS (k ++ (r.reverse.map (fun b => if b then "s".toList else "_list".toList)).flatten) (updates r.length reg)).isSome = true := by
    intro r
    induction r with
    | nil => simpa [updates] using h
    | cons b r ih =>
      have hf := C135_update_forms _ _ ih
      rw [List.reverse_cons, List.map_append, List.flatten_append, ← List.append_assoc]
      cases b with
      | false => exact hf.2
      | true =>
        have hlast : ∀ c, c = 'x' ∨ c = 'y' →
            (k ++ (r.reverse.map (fun b => if b then "s".toList else "_list".toList)).flatten).getLast? ≠ some c := by
          intro c hc
          cases r with
          | nil => simp only [List.reverse_nil, List.map_nil, List.flatten_nil, List.append_nil]; rcases hc with rfl | rfl <;> assumption
          | cons d r =>
            rw [List.reverse_cons, List.map_append, List.flatten_append, ← List.append_assoc, List.getLast?_append]
            cases d with
            | false => show ¬ some 't' = some c; rcases hc with rfl | rfl <;> decide
            | true => show ¬ some 's' = some c; rcases hc with rfl | rfl <;> decide
        have hp := hf.1
        unfold plural at hp
        rw [if_neg (hlast 'y' (Or.inr rfl)), if_neg (hlast 'x' (Or.inl rfl))] at hp
        exact hp
  have := key w.reverse
  rwa [List.reverse_reverse, List.length_reverse] at this

/-- a registry with two types -/
def exReg : VReg := updateRegistry [("color".toList, ⟨"is_color".toList, false⟩), ("box".toList, ⟨"is_bbox".toList, false⟩)]

example : exReg.map (fun p => (String.ofList p.1, String.ofList p.2.func, p.2.list)) =
    [("color", "is_color", false), ("box", "is_bbox", false), ("colors", "is_color", true), ("color_list", "is_color", true),
     ("boxes", "is_bbox", true), ("box_list", "is_bbox", true)] := by decide +kernel

/-- the hypotheses are met; and the sizes after one, two and three calls -/
example : lookupS "color".toList exReg = some ⟨"is_color".toList, false⟩ ∧ lookupS ("color".toList ++ "_list".toList) exReg = some ⟨"is_color".toList, true⟩ ∧
    lookupS ("foo".toList ++ "_list".toList) exReg = none ∧ (exReg.map (·.1)).Nodup ∧
    [exReg.length, (updates 1 exReg).length, (updates 2 exReg).length] = [6, 14, 30] := by decide +kernel

/-! ## C136 -/

/-- the configuration has an option of this name and value in the section of this path -/
def HasOpt : List Str → Str → CV → List CTree → Prop
  | [], k, v, l => CTree.opt k v ∈ l
  | n :: q, k, v, l => ∃ items, CTree.sec n items ∈ l ∧ HasOpt q k v items

/-- the configuration has a section of this path -/
def HasSec : List Str → List CTree → Prop
  | [], _ => True
  | n :: q, l => ∃ items, CTree.sec n items ∈ l ∧ HasSec q items

/-- the specifications of the section of this path -/
def CSpecT.at (s : CSpecT) : List Str → CSpecT
  | [] => s
  | n :: q => (s.sub n).at q

theorem mem_removeItems (s : CSpecT) (t : CTree) : ∀ l : List CTree, t ∈ removeItems s l ↔ ∃ u ∈ l, t ∈ removeItem s u
  | [] => by simp [removeItems]
  | u :: l => by simp [removeItems, mem_removeItems s t l]

theorem mem_removeItem_opt (s : CSpecT) (k : Str) (v : CV) (u : CTree) :
    CTree.opt k v ∈ removeItem s u ↔ u = .opt k v ∧ ¬ (s.isEmpty = false ∧ CV.eq (s.default k) v = true) := by
  cases u with
  | opt k' v' =>
    unfold removeItem
    split
    · next h =>
      simp only [Bool.and_eq_true, Bool.not_eq_true'] at h
      simp only [List.not_mem_nil, CTree.opt.injEq, false_iff, not_and]
      rintro ⟨rfl, rfl⟩ hn
      exact hn h.1 h.2
    · next h =>
      simp only [Bool.and_eq_true, Bool.not_eq_true'] at h
      simp only [List.mem_singleton, CTree.opt.injEq]
      constructor
      · rintro ⟨rfl, rfl⟩; exact ⟨⟨rfl, rfl⟩, h⟩
      · rintro ⟨⟨rfl, rfl⟩, -⟩; exact ⟨rfl, rfl⟩
  | sec n items => simp [removeItem]

theorem mem_removeItem_sec (s : CSpecT) (n : Str) (items : List CTree) (u : CTree) :
    CTree.sec n items ∈ removeItem s u ↔ ∃ items', u = .sec n items' ∧ items = removeItems (s.sub n) items' := by
  cases u with
  | opt k' v' => unfold removeItem; split <;> simp
  | sec n' items' =>
    simp only [removeItem, List.mem_singleton, CTree.sec.injEq]
    constructor
    · rintro ⟨rfl, rfl⟩; exact ⟨items', ⟨rfl, rfl⟩, rfl⟩
    · rintro ⟨_, ⟨rfl, rfl⟩, rfl⟩; exact ⟨rfl, rfl⟩

/-- **C136.** `remove_defaults` removes exactly the options that are equal to the default text of their specifications; the others are kept with
their values, and so are the sections. -/
theorem C136_removed_iff_partial (q : List Str) (k : Str) (v : CV) : ∀ (s : CSpecT) (l : List CTree),
    HasOpt q k v (removeItems s l) ↔ HasOpt q k v l ∧ ¬ ((s.at q).isEmpty = false ∧ CV.eq ((s.at q).default k) v = true) := by
  induction q with
  | nil =>
    intro s l
    show CTree.opt k v ∈ _ ↔ CTree.opt k v ∈ l ∧ _
    rw [mem_removeItems]
    constructor
    · rintro ⟨u, hu, h⟩
      obtain ⟨rfl, h'⟩ := (mem_removeItem_opt s k v u).1 h
      exact ⟨hu, h'⟩
    · rintro ⟨h1, h2⟩
      exact ⟨_, h1, (mem_removeItem_opt s k v _).2 ⟨rfl, h2⟩⟩
  | cons n q ih =>
    intro s l
    constructor
    · rintro ⟨items, h1, h2⟩
      obtain ⟨u, hu, h⟩ := (mem_removeItems s _ l).1 h1
      obtain ⟨items', rfl, rfl⟩ := (mem_removeItem_sec s n items u).1 h
      obtain ⟨h3, h4⟩ := (ih (s.sub n) items').1 h2
      exact ⟨⟨items', hu, h3⟩, h4⟩
    · rintro ⟨⟨items', hu, h3⟩, h4⟩
      exact ⟨_, (mem_removeItems s _ l).2 ⟨_, hu, (mem_removeItem_sec s n _ _).2 ⟨items', rfl, rfl⟩⟩, (ih (s.sub n) items').2 ⟨h3, h4⟩⟩

/-- **C136.** No section is removed or created. -/
theorem C136_sections (q : List Str) : ∀ (s : CSpecT) (l : List CTree), HasSec q (removeItems s l) ↔ HasSec q l := by
  induction q with
  | nil => intro s l; exact Iff.rfl
  | cons n q ih =>
    intro s l
    constructor
    · rintro ⟨items, h1, h2⟩
      obtain ⟨u, hu, h⟩ := (mem_removeItems s _ l).1 h1
      obtain ⟨items', rfl, rfl⟩ := (mem_removeItem_sec s n items u).1 h
      exact ⟨items', hu, (ih (s.sub n) items').1 h2⟩
    · rintro ⟨items', hu, h3⟩
      exact ⟨_, (mem_removeItems s _ l).2 ⟨_, hu, (mem_removeItem_sec s n _ _).2 ⟨items', rfl, rfl⟩⟩, (ih (s.sub n) items').2 h3⟩

/-- **C136 is violated** for options that are not texts: an integer or boolean option is never removed when its default is given in the
specifications, even when it has its default value, since the default is compared as a text. -/
theorem C136_typed_violated (q : List Str) (k : Str) (s : CSpecT) (l : List CTree) (d : Str) (hd : (s.at q).default k = .str d) (v : CV)
    (hv : (∃ n, v = .int n) ∨ (∃ b, v = .bool b)) (h : HasOpt q k v l) : HasOpt q k v (removeItems s l) := by
  rw [C136_removed_iff_partial]
  refine ⟨h, ?_⟩
  rw [hd]
  rintro ⟨-, h⟩
  rcases hv with ⟨n, rfl⟩ | ⟨b, rfl⟩ <;> simp [CV.eq] at h

mutual
theorem CV.eq_refl : ∀ v : CV, CV.eq v v = true
  | .none => by simp [CV.eq]
  | .str s => by simp [CV.eq]
  | .int n => by simp [CV.eq]
  | .bool b => by simp [CV.eq]
  | .list l => by unfold CV.eq; exact CV.eqs_refl l
theorem CV.eqs_refl : ∀ l : List CV, CV.eqs l l = true
  | [] => by simp [CV.eqs]
  | a :: l => by unfold CV.eqs; rw [CV.eq_refl a, CV.eqs_refl l]; rfl
end

/-- **C136.** A text option with its default value is removed, and an option without default, or out of the specifications, is kept unless it is `None`. -/
theorem C136_text_partial (q : List Str) (k : Str) (s : CSpecT) (l : List CTree) :
    (∀ d, (s.at q).isEmpty = false → (s.at q).default k = .str d → ¬ HasOpt q k (.str d) (removeItems s l)) ∧
    (∀ v, (s.at q).default k = .none → v ≠ .none → HasOpt q k v l → HasOpt q k v (removeItems s l)) := by
  refine ⟨fun d h1 h2 h => ?_, fun v h1 h2 h => ?_⟩
  · rw [C136_removed_iff_partial, h2] at h
    exact h.2 ⟨h1, CV.eq_refl _⟩
  · rw [C136_removed_iff_partial, h1]
    refine ⟨h, ?_⟩
    rintro ⟨-, h⟩
    cases v <;> simp [CV.eq] at h
    exact h2 rfl

/-- the specifications have a section of this path, with these options (and their defaults) and sub-sections -/
def SpecAt : CSpecT → List Str → List (Str × CV) → List (Str × CSpecT) → Prop
  | s, [], opts, subs => s = .sec opts subs
  | s, n :: q, opts, subs => ∃ o u t, s = .sec o u ∧ lookupS n u = some t ∧ SpecAt t q opts subs

theorem SpecAt.at : ∀ (q : List Str) (s : CSpecT) (opts : List (Str × CV)) (subs : List (Str × CSpecT)), SpecAt s q opts subs → s.at q = .sec opts subs
  | [], s, opts, subs, h => h
  | n :: q, s, opts, subs, h => by
    obtain ⟨o, u, t, rfl, h1, h2⟩ := h
    show ((CSpecT.sec o u).sub n).at q = _
    have : (CSpecT.sec o u).sub n = t := by
      show (lookupS n u).getD (.sec [] []) = t
      rw [h1]
      rfl
    rw [this]
    exact SpecAt.at q t opts subs h2

/-- **C136.** In a section with specifications, an option is removed exactly when it is equal to its default there, as it is written, or when it is `None` and has no default; all the others are kept. -/
theorem C136_declared_partial (q : List Str) (s : CSpecT) (opts : List (Str × CV)) (subs : List (Str × CSpecT)) (hs : SpecAt s q opts subs)
    (hne : opts ≠ [] ∨ subs ≠ []) (k : Str) (v : CV) (l : List CTree) :
    HasOpt q k v (removeItems s l) ↔ HasOpt q k v l ∧ (∀ d, lookupS k opts = some d → CV.eq d v = false) ∧ (lookupS k opts = none → v ≠ .none) := by
  rw [C136_removed_iff_partial, hs.at]
  have he : (CSpecT.sec opts subs).isEmpty = false := by
    show (opts.isEmpty && subs.isEmpty) = false
    rcases hne with h | h
    · cases opts with
      | nil => exact absurd rfl h
      | cons a b => rfl
    · cases subs with
      | nil => exact absurd rfl h
      | cons a b => rw [List.isEmpty_cons, Bool.and_false]
  have hd : (CSpecT.sec opts subs).default k = (lookupS k opts).getD .none := rfl
  rw [he, hd]
  apply and_congr_right
  intro _
  cases hk : lookupS k opts with
  | some d => simp
  | none => cases v <;> simp [CV.eq]

/-- **C136.** In a section without specifications, nothing is removed. -/
theorem C136_unspecified (q : List Str) (s : CSpecT) (hs : SpecAt s q [] []) (k : Str) (v : CV) (l : List CTree) : HasOpt q k v (removeItems s l) ↔ HasOpt q k v l := by
  rw [C136_removed_iff_partial, hs.at]
  simp [CSpecT.isEmpty]

/-- a configuration with its specifications: `name` (text), `n` (integer) and a section -/
def exSpecT : CSpecT := .sec [("name".toList, .str "foo".toList), ("n".toList, .str "5".toList)] [("sec".toList, .sec [("a".toList, .str "b".toList)] [])]
def exTree : List CTree := [.opt "name".toList (.str "foo".toList), .opt "n".toList (.int 5), .sec "sec".toList [.opt "a".toList (.str "c".toList)]]

example : SpecAt exSpecT ["sec".toList] [("a".toList, .str "b".toList)] [] := ⟨_, _, _, rfl, rfl, rfl⟩

example : HasOpt [] "n".toList (.int 5) exTree ∧ (exSpecT.at []).default "n".toList = .str "5".toList ∧ (exSpecT.at ["sec".toList]).isEmpty = false ∧
    removeItems exSpecT exTree = [.opt "n".toList (.int 5), .sec "sec".toList [.opt "a".toList (.str "c".toList)]] := by
  refine ⟨by simp [HasOpt, exTree], rfl, rfl, rfl⟩

/-! ## C137 -/

/-- the names of the sections from the top to this one -/
def CSec.path : CSec → List Str
  | .root => []
  | .sub p n => p.path ++ [n]

theorem secLoop_eq : ∀ (c : CSec) (l : List Str), secLoop c.depth (.sub c []) l = l ++ c.path.reverse
  | .root, l => by simp [CSec.depth, secLoop, CSec.path]
  | .sub p n, l => by
    unfold CSec.depth secLoop
    show secLoop p.depth (.sub p n) (l ++ [n]) = _
    have e : ∀ (m : Nat) (l : List Str), secLoop m (.sub p n) l = secLoop m (.sub p []) l := by
      intro m l
      cases m <;> rfl
    rw [e, secLoop_eq p (l ++ [n])]
    simp [CSec.path]

/-- **C137.** `get_sec_names` gives the names of the sections from the top to the given one. -/
theorem C137_sec_names (c : CSec) : getSecNames c = c.path := by
  unfold getSecNames
  cases c with
  | root => rfl
  | sub p n =>
    rw [if_neg (by simp [CSec.depth])]
    show (secLoop p.depth (.sub p n) [n]).reverse = _
    have e : ∀ (m : Nat) (l : List Str), secLoop m (.sub p n) l = secLoop m (.sub p []) l := by
      intro m l
      cases m <;> rfl
    rw [e, secLoop_eq]
    simp [CSec.path]

theorem pathLoop_eq : ∀ (c : CSec) (l : List Str), pathLoop c l = l ++ c.path.reverse
  | .root, l => by simp [pathLoop, CSec.path]
  | .sub p n, l => by unfold pathLoop; rw [pathLoop_eq p]; simp [CSec.path]

/-- **C137.** `get_cfg_path` gives the names of the sections from the top to the given one, and the entry if any, joined by the separator. -/
theorem C137_path (c : CSec) (entry : Option Str) (sep : Str) : getCfgPath c entry sep = sep.intercalate (getSecNames c ++ entry.toList) := by
  unfold getCfgPath
  rw [pathLoop_eq, C137_sec_names]
  congr 1
  cases entry <;> simp

theorem path_injective : ∀ c d : CSec, c.path = d.path → c = d
  | .root, .root, _ => rfl
  | .root, .sub p n, h => by simp [CSec.path] at h
  | .sub p n, .root, h => by simp [CSec.path] at h
  | .sub p n, .sub p' n', h => by
    have h' : p.path ++ [n] = p'.path ++ [n'] := h
    have := List.append_inj' h' rfl
    rw [path_injective p p' this.1, (List.cons.inj this.2).1]

/-- **C137.** Different sections have different paths, when their names are not empty and do not contain the separator. -/
theorem C137_injective (c d : CSec) (sep : Char) (hc : ∀ n ∈ c.path, n ≠ [] ∧ sep ∉ n) (hd : ∀ n ∈ d.path, n ≠ [] ∧ sep ∉ n)
    (h : getCfgPath c none [sep] = getCfgPath d none [sep]) : c = d := by
  apply path_injective
  rw [C137_path, C137_path, C137_sec_names, C137_sec_names] at h
  simp only [Option.toList_none, List.append_nil] at h
  have one : ∀ l : List Str, (∀ n ∈ l, n ≠ [] ∧ sep ∉ n) → l ≠ [] → [sep].intercalate l ≠ [] := by
    intro l hl hne he
    cases l with
    | nil => exact hne rfl
    | cons a l =>
      have ha := (hl a (by simp)).1
      cases l with
      | nil => simp [List.intercalate] at he; exact ha he
      | cons b l => simp [List.intercalate] at he
  by_cases e1 : c.path = []
  · by_cases e2 : d.path = []
    · rw [e1, e2]
    · rw [e1] at h
      exact absurd h.symm (one _ hd e2)
  · by_cases e2 : d.path = []
    · rw [e2] at h
      exact absurd h (one _ hc e1)
    · have h1 := List.splitOn_intercalate sep (ls := c.path) (fun l hl => (hc l hl).2) e1
      have h2 := List.splitOn_intercalate sep (ls := d.path) (fun l hl => (hd l hl).2) e2
      rw [← h1, ← h2, h]

example : getCfgPath (.sub (.sub .root "a".toList) "b".toList) (some "c".toList) "::".toList = "a::b::c".toList ∧
    getSecNames (.sub (.sub .root "a".toList) "b".toList) = ["a".toList, "b".toList] := by decide +kernel

/-! ## C138 -/

/-- **C138.** A wrapped validator is called with the named arguments that it knows, the others being ignored: it is not refused because of
its named arguments, unless one of them is already given by position. -/
theorem C138_wrapped {α β : Type} (f : PyFn α β) (value : α) (pos : List α) (kw : List (Str × α)) (hp : pos.length ≤ f.args.length)
    (hk : ∀ p ∈ kw, p.1 ∉ f.args.take pos.length) : f.wrapped value pos kw = some (f.body value pos (kw.filter (fun p => decide (p.1 ∈ f.args)))) := by
  unfold PyFn.wrapped PyFn.call
  rw [if_neg (by omega), if_pos]
  rw [List.all_eq_true]
  intro p hp
  obtain ⟨h1, h2⟩ := List.mem_filter.mp hp
  have h2 : p.1 ∈ f.args := by simpa using h2
  rw [← List.take_append_drop pos.length f.args, List.mem_append] at h2
  have := h2.resolve_left (hk p h1)
  simp [this]

/-- **C138.** Extra named arguments change nothing. -/
theorem C138_extra {α β : Type} (f : PyFn α β) (value : α) (pos : List α) (kw extra : List (Str × α)) (he : ∀ p ∈ extra, p.1 ∉ f.args) :
    f.wrapped value pos (kw ++ extra) = f.wrapped value pos kw := by
  unfold PyFn.wrapped
  rw [List.filter_append]
  have : extra.filter (fun p => decide (p.1 ∈ f.args)) = [] := by
    rw [List.filter_eq_nil_iff]
    intro p hp
    simpa using he p hp
  rw [this, List.append_nil]

/-- **C138 is violated** for validators with keyword-only arguments or `**kwargs`: an argument that the validator accepts is dropped. -/
theorem C138_keyword_only_violated {α β : Type} (f : PyFn α β) (value : α) (k : Str) (v : α) (hk : k ∈ f.kwonly ∨ f.varkw = true) (hn : k ∉ f.args) :
    f.call value [] [(k, v)] = some (f.body value [] [(k, v)]) ∧ f.wrapped value [] [(k, v)] = some (f.body value [] []) := by
  constructor
  · unfold PyFn.call
    rw [if_neg (by simp), if_pos]
    rcases hk with h | h <;> simp [h, hn]
  · rw [C138_wrapped f value [] _ (by simp) (by simp)]
    simp [hn]

/-- a validator `f(value, default=None)` and a specification with a text of help -/
example : (PyFn.mk (α := Nat) (β := Nat) ["default".toList] [] false (fun v _ kw => v + kw.length)).wrapped 3 [] [("default".toList, 1), ("help".toList, 2)] = some 4 := by
  decide +kernel

end Xoa
