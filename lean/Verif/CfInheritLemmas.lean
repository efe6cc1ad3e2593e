import Verif.CfInherit
import Verif.MiscFilterProps
import Mathlib.Tactic.Tauto
import Mathlib.Tactic.ByContra

/-! Lemmas on the merge of specifications and on their processing -/

namespace Xoa

/-! ## merging -/

/-- the value of a key after a merge, given the values in the child and in the parent -/
def mergedOpt {α : Type} (g : α → α → α) : Option α → Option α → Option α
  | Option.none, y => y
  | some w, Option.none => some w
  | some w, some v => some (g w v)

theorem setS_keys {α : Type} (k : Str) (v : α) (d : List (Str × α)) (h : lookupS k d ≠ none) :
    (setS k v d).map (·.1) = d.map (·.1) := by
  induction d with
  | nil => simp [lookupS] at h
  | cons p d ih =>
    obtain ⟨a, b⟩ := p
    simp only [setS]
    by_cases e : k = a
    · subst e; simp
    · rw [if_neg e]; simp only [lookupS, if_neg e] at h; simp [ih h]

theorem setS_nodup {α : Type} (k : Str) (v : α) (d : List (Str × α)) (hn : (d.map (·.1)).Nodup) :
    ((setS k v d).map (·.1)).Nodup := by
  induction d with
  | nil => simp [setS]
  | cons p d ih =>
    obtain ⟨a, b⟩ := p
    simp only [List.map_cons, List.nodup_cons] at hn
    simp only [setS]
    by_cases e : k = a
    · subst e; simp [hn.1, hn.2]
    · rw [if_neg e]
      simp only [List.map_cons, List.nodup_cons]
      refine ⟨?_, ih hn.2⟩
      intro hm
      have := lookupS_some_of_mem a _ hm
      rw [lookupS_setS, if_neg (fun h => e h.symm)] at this
      exact hn.1 (mem_keys_of_lookupS a d this)

section Gen
variable {α : Type} (g : α → α → α)

def mergeItemG (out : List (Str × α)) (kv : Str × α) : List (Str × α) :=
  match lookupS kv.1 out with
  | Option.none => setS kv.1 kv.2 out
  | some w => setS kv.1 (g w kv.2) out

theorem lookup_mergeItemG (out : List (Str × α)) (k' : Str) (v : α) (k : Str) :
    lookupS k (mergeItemG g out (k', v)) = if k = k' then mergedOpt g (lookupS k out) (some v) else lookupS k out := by
  unfold mergeItemG
  dsimp only
  cases h : lookupS k' out with
  | none =>
    dsimp only
    rw [lookupS_setS]
    by_cases e : k = k'
    · subst e; simp [h, mergedOpt]
    · simp [e]
  | some w =>
    dsimp only
    rw [lookupS_setS]
    by_cases e : k = k'
    · subst e; simp [h, mergedOpt]
    · simp [e]

theorem lookup_mergeG (b : List (Str × α)) (hb : (b.map (·.1)).Nodup) (a : List (Str × α)) (k : Str) :
    lookupS k (b.foldl (mergeItemG g) a) = mergedOpt g (lookupS k a) (lookupS k b) := by
  induction b generalizing a with
  | nil => cases h : lookupS k a <;> simp [lookupS, mergedOpt, h]
  | cons p b ih =>
    obtain ⟨k', v⟩ := p
    simp only [List.map_cons, List.nodup_cons] at hb
    rw [List.foldl_cons, ih hb.2, lookup_mergeItemG]
    simp only [lookupS]
    by_cases e : k = k'
    · subst e
      rw [lookupS_none_of_notMem k b hb.1]
      cases h : lookupS k a <;> simp [mergedOpt]
    · simp [e]

theorem mergeG_nodup (b : List (Str × α)) (a : List (Str × α)) (ha : (a.map (·.1)).Nodup) :
    ((b.foldl (mergeItemG g) a).map (·.1)).Nodup := by
  induction b generalizing a with
  | nil => exact ha
  | cons p b ih =>
    rw [List.foldl_cons]
    apply ih
    unfold mergeItemG
    cases lookupS p.1 a <;> exact setS_nodup _ _ _ ha
end Gen

theorem mergeF_eq (a b : List (Str × FV)) : mergeF a b = b.foldl (mergeItemG mergeFV) a := by
  have : mergeItemF = mergeItemG mergeFV := by
    funext o kv
    unfold mergeItemF mergeItemG
    cases lookupS kv.1 o <;> rfl
  rw [mergeF, this]

theorem mergeEntry_eq (a b : CfEntry) : mergeEntry a b = b.foldl (mergeItemG mergeSV) a := by
  have : mergeItemS = mergeItemG mergeSV := by
    funext o kv
    unfold mergeItemS mergeItemG
    cases lookupS kv.1 o <;> rfl
  rw [mergeEntry, this]

theorem lookup_mergeF (a b : List (Str × FV)) (hb : (b.map (·.1)).Nodup) (k : Str) :
    lookupS k (mergeF a b) = mergedOpt mergeFV (lookupS k a) (lookupS k b) := by rw [mergeF_eq]; exact lookup_mergeG mergeFV b hb a k

theorem lookup_mergeEntry (a b : CfEntry) (hb : (b.map (·.1)).Nodup) (k : Str) :
    lookupS k (mergeEntry a b) = mergedOpt mergeSV (lookupS k a) (lookupS k b) := by rw [mergeEntry_eq]; exact lookup_mergeG mergeSV b hb a k

theorem mergeF_nodup (a b : List (Str × FV)) (ha : (a.map (·.1)).Nodup) : ((mergeF a b).map (·.1)).Nodup := by
  rw [mergeF_eq]; exact mergeG_nodup mergeFV b a ha

theorem mergeEntry_nodup (a b : CfEntry) (ha : (a.map (·.1)).Nodup) : ((mergeEntry a b).map (·.1)).Nodup := by
  rw [mergeEntry_eq]; exact mergeG_nodup mergeSV b a ha

theorem lookup_dropKeys (cat fc : Str) (e : CfEntry) (k : Str) :
    lookupS k (dropKeys cat fc e) = if cat ≠ fc ∧ k ∉ catKeys cat ∧ k ∈ catKeys fc then none else lookupS k e := by
  unfold dropKeys
  by_cases h : cat = fc
  · simp [h]
  · rw [if_neg h, lookupS_filter k (fun s => !(decide (s ∉ catKeys cat) && decide (s ∈ catKeys fc))) e]
    by_cases h1 : k ∈ catKeys cat <;> by_cases h2 : k ∈ catKeys fc <;> simp [h, h1, h2]

theorem dropKeys_nodup (cat fc : Str) (e : CfEntry) (h : (e.map (·.1)).Nodup) : ((dropKeys cat fc e).map (·.1)).Nodup := by
  unfold dropKeys
  split
  · exact h
  · exact h.sublist (List.Sublist.map _ List.filter_sublist)

/-! ## entries -/

theorem lookupE_setE (k k' : CfKey) (v : CfEntry) (d : CfEnts) :
    lookupE k (setE k' v d) = if k = k' then some v else lookupE k d := by
  induction d with
  | nil => simp [setE, lookupE]
  | cons p d ih =>
    obtain ⟨a, b⟩ := p
    simp only [setE]
    by_cases h : k' = a
    · subst h
      rw [if_pos rfl]
      by_cases hk : k = k'
      · simp [lookupE, hk]
      · simp [lookupE, hk]
    · rw [if_neg h]
      simp only [lookupE, ih]
      by_cases hk : k = a
      · have : k ≠ k' := fun e => h (e ▸ hk)
        rw [if_pos hk, if_neg this, if_pos hk]
      · rw [if_neg hk, if_neg hk]

theorem setE_keys (k : CfKey) (v : CfEntry) (d : CfEnts) (h : lookupE k d ≠ none) :
    (setE k v d).map (·.1) = d.map (·.1) := by
  induction d with
  | nil => simp [lookupE] at h
  | cons p d ih =>
    obtain ⟨a, b⟩ := p
    simp only [setE]
    by_cases e : k = a
    · subst e; simp
    · rw [if_neg e]; simp only [lookupE, if_neg e] at h; simp [ih h]

theorem setE_same (k : CfKey) (v : CfEntry) (d : CfEnts) (h : lookupE k d = some v) : setE k v d = d := by
  induction d with
  | nil => simp [lookupE] at h
  | cons p d ih =>
    obtain ⟨a, b⟩ := p
    simp only [setE]
    by_cases e : k = a
    · subst e; simp only [lookupE, if_true, Option.some.injEq] at h; simp [h]
    · rw [if_neg e]; simp only [lookupE, if_neg e] at h; rw [ih h]

theorem mem_keys_of_lookupE (k : CfKey) (d : CfEnts) (h : lookupE k d ≠ none) : k ∈ d.map (·.1) := by
  induction d with
  | nil => simp [lookupE] at h
  | cons p d ih =>
    obtain ⟨a, b⟩ := p
    by_cases e : k = a
    · simp [e]
    · simp only [lookupE, if_neg e] at h; exact List.mem_cons_of_mem _ (ih h)

theorem lookupE_of_mem_keys (k : CfKey) (d : CfEnts) (h : k ∈ d.map (·.1)) : lookupE k d ≠ none := by
  induction d with
  | nil => simp at h
  | cons p d ih =>
    obtain ⟨a, b⟩ := p
    by_cases e : k = a
    · simp [lookupE, e]
    · simp only [List.map_cons, List.mem_cons] at h
      simp only [lookupE, if_neg e]; exact ih (h.resolve_left e)

theorem mem_of_lookupE (k : CfKey) (v : CfEntry) (d : CfEnts) (h : lookupE k d = some v) : (k, v) ∈ d := by
  induction d with
  | nil => simp [lookupE] at h
  | cons p d ih =>
    obtain ⟨a, b⟩ := p
    simp only [lookupE] at h
    split at h
    · next e => subst e; rw [Option.some.inj h]; simp
    · exact List.mem_cons_of_mem _ (ih h)

/-! ## well-formed entries -/

/-- An entry as the validation leaves it (xoa/cf.ini): a dictionary with `attrs` (lists of long and
standard names), a list of names, `inherit` a string or `None` or absent, and `axis`, which a
coordinate always has, `None` or one of the types of dimensions. -/
structure WfEntry (dims : CfDims) (cat : Str) (e : CfEntry) : Prop where
  hcat : cat = cVars ∨ cat = cCoords
  nodup : (e.map (·.1)).Nodup
  dicts : ∀ f d, lookupS f e = some (.dict d) → (d.map (·.1)).Nodup
  names : ∃ l, lookupS kName e = some (.flat (.list l))
  inherit : lookupS kInherit e = none ∨ lookupS kInherit e = some (.flat .none) ∨ ∃ s, lookupS kInherit e = some (.flat (.str s))
  attrs : ∃ a, lookupS kAttrs e = some (.dict a) ∧ (a.map (·.1)).Nodup ∧
    (∃ l, lookupS kLong a = some (.list l)) ∧ (∃ l, lookupS kStd a = some (.list l)) ∧
    (cat = cCoords → lookupS kAxis a ≠ none) ∧
    (∀ v, lookupS kAxis a = some v → v = .none ∨ ∃ s, v = .str s ∧ (s ≠ [] → lookupS (lower s) dims ≠ none))

/-- the entry is as processed: it has a long name, does not inherit any more and is marked -/
structure DoneEntry (dims : CfDims) (cat : Str) (e : CfEntry) : Prop extends WfEntry dims cat e where
  noInherit : inheritText e = .ok none
  long : ∀ name, prepEntry name e = .ok e
  marked : markDone e = e

theorem ne_keys : kAttrs ≠ kInherit ∧ kAttrs ≠ kProcessed ∧ kName ≠ kAttrs ∧ kName ≠ kInherit ∧ kName ≠ kProcessed ∧
    kInherit ≠ kProcessed ∧ kInherit ≠ kAttrs ∧ kLong ≠ kStd ∧ kLong ≠ kAxis ∧ kAxis ≠ kLong ∧ kStd ≠ kLong ∧ kProcessed ≠ kAttrs ∧ kProcessed ≠ kInherit := by decide

theorem lookup_markDone (e : CfEntry) (k : Str) (h : k ≠ kProcessed) : lookupS k (markDone e) = lookupS k e := by
  unfold markDone; rw [lookupS_setS, if_neg h]

theorem setS_setS {α : Type} (k : Str) (v w : α) (d : List (Str × α)) : setS k v (setS k w d) = setS k v d := by
  induction d with
  | nil => simp [setS]
  | cons p d ih =>
    obtain ⟨a, b⟩ := p
    simp only [setS]
    by_cases e : k = a
    · simp [e, setS]
    · rw [if_neg e, if_neg e]; simp only [setS, if_neg e, ih]

theorem markDone_markDone (e : CfEntry) : markDone (markDone e) = markDone e := setS_setS _ _ _ _

/-- an entry with a non empty list of long names is left unchanged by the first step -/
theorem prep_of_long (e : CfEntry) (a : List (Str × FV)) (l : List Str) (ha : lookupS kAttrs e = some (.dict a))
    (hl : lookupS kLong a = some (.list l)) (hne : l ≠ []) (name : Str) : prepEntry name e = .ok e := by
  have ht : (FV.list l).truthy = true := by cases l <;> simp_all [FV.truthy]
  simp [prepEntry, pyAttrs, pyItem, ha, hl, Except.bind, ht]

/-- the entry with its long name, xoa/cf.py:819-826 -/
theorem prep_ok (dims : CfDims) (cat name : Str) (e : CfEntry) (h : WfEntry dims cat e) :
    ∃ e', prepEntry name e = .ok e' ∧ WfEntry dims cat e' ∧ (∀ n, prepEntry n e' = .ok e') ∧
      (∀ k, k ≠ kAttrs → lookupS k e' = lookupS k e) ∧
      ∃ a a' l l', lookupS kAttrs e = some (.dict a) ∧ lookupS kAttrs e' = some (.dict a') ∧ (∀ k, k ≠ kLong → lookupS k a' = lookupS k a) ∧
        lookupS kLong a = some (.list l) ∧ lookupS kLong a' = some (.list l') ∧ l' ≠ [] ∧ (l ≠ [] → e' = e) ∧
        (l = [] → ∃ sn : List Str, lookupS kStd a = some (.list sn) ∧ l' = [capitalize (replaceC '_' ' ' (sn.headD name))]) := by
  obtain ⟨a, ha, hna, ⟨l, hl⟩, ⟨sn, hs⟩, hax⟩ := h.attrs
  by_cases hne : l = []
  · subst hne
    let l' := [capitalize (replaceC '_' ' ' (sn.headD name))]
    let a' := setS kLong (.list l') a
    refine ⟨setS kAttrs (.dict a') e, ?_, ?_, ?_, ?_, ?_⟩
    · cases sn with
      | nil => simp [prepEntry, pyAttrs, pyItem, ha, hl, hs, Except.bind, FV.truthy, longNameSource, a', l']
      | cons s t => simp [prepEntry, pyAttrs, pyItem, ha, hl, hs, Except.bind, FV.truthy, longNameSource, a', l']
    · refine ⟨h.hcat, setS_nodup _ _ _ h.nodup, ?_, ?_, ?_, a', ?_, setS_nodup _ _ _ hna, ⟨l', ?_⟩, ⟨sn, ?_⟩, ?_, ?_⟩
      · intro f d hd
        rw [lookupS_setS] at hd
        split at hd
        · injection hd with hd; injection hd with hd; subst hd; exact setS_nodup _ _ _ hna
        · exact h.dicts f d hd
      · rw [lookupS_setS, if_neg (by decide)]; exact h.names
      · rw [lookupS_setS, if_neg (by decide)]; exact h.inherit
      · rw [lookupS_setS]; simp
      · simp [a', lookupS_setS]
      · simp only [a']; rw [lookupS_setS, if_neg (by decide)]; exact hs
      · intro hc; simp only [a']; rw [lookupS_setS, if_neg (by decide)]; exact hax.1 hc
      · intro v; simp only [a']; rw [lookupS_setS, if_neg (by decide)]; exact hax.2 v
    · intro n
      exact prep_of_long _ a' l' (by rw [lookupS_setS]; simp) (by simp [a', lookupS_setS]) (by simp [l']) n
    · intro k hk; rw [lookupS_setS, if_neg hk]
    · refine ⟨a, a', [], l', ha, by rw [lookupS_setS]; simp, ?_, hl, by simp [a', lookupS_setS], by simp [l'], by simp, ?_⟩
      · intro k hk; simp only [a']; rw [lookupS_setS, if_neg hk]
      · intro _; exact ⟨sn, hs, rfl⟩
  · refine ⟨e, prep_of_long e a l ha hl hne name, h, fun n => prep_of_long e a l ha hl hne n, fun _ _ => rfl,
      a, a, l, l, ha, ha, fun _ _ => rfl, hl, hl, hne, fun _ => rfl, fun h0 => absurd h0 hne⟩

theorem inheritText_congr (e e' : CfEntry) (h : lookupS kInherit e' = lookupS kInherit e) : inheritText e' = inheritText e := by
  simp [inheritText, h]

theorem inheritText_wf (dims : CfDims) (cat : Str) (e : CfEntry) (h : WfEntry dims cat e) : ∃ t, inheritText e = .ok t := by
  rcases h.inherit with h | h | ⟨s, h⟩
  · simp [inheritText, h]
  · simp [inheritText, h, SV.truthy, FV.truthy]
  · cases s <;> simp [inheritText, h, SV.truthy, FV.truthy]

theorem inheritText_none (e : CfEntry) (h : lookupS kInherit e = some (.flat .none)) : inheritText e = .ok none := by
  simp [inheritText, h, SV.truthy, FV.truthy]

/-- a root of the inheritance graph -/
theorem done_root (dims : CfDims) (cat : Str) (e : CfEntry) (h : WfEntry dims cat e) (hp : ∀ n, prepEntry n e = .ok e)
    (hi : inheritText e = .ok none) : DoneEntry dims cat (markDone e) := by
  have hl : ∀ k, k ≠ kProcessed → lookupS k (markDone e) = lookupS k e := lookup_markDone e
  have hw : WfEntry dims cat (markDone e) := by
    refine ⟨h.hcat, setS_nodup _ _ _ h.nodup, ?_, ?_, ?_, ?_⟩
    · intro f d hd
      by_cases hf : f = kProcessed
      · subst hf; simp [markDone, lookupS_setS] at hd
      · rw [hl _ hf] at hd; exact h.dicts f d hd
    · rw [hl _ (by decide)]; exact h.names
    · rw [hl _ (by decide)]; exact h.inherit
    · rw [hl _ (by decide)]; exact h.attrs
  refine ⟨hw, ?_, ?_, markDone_markDone e⟩
  · rw [inheritText_congr e _ (hl _ (by decide))]; exact hi
  · intro n
    have := hp n
    obtain ⟨a, ha, -, ⟨l, hll⟩, ⟨sn, hs⟩, -⟩ := h.attrs
    by_cases hne : l = []
    · exfalso
      subst hne
      obtain ⟨e', h1, -, -, -, a1, a2, l1, l2, b1, b2, -, b3, b4, b5, b6, -⟩ := prep_ok dims cat n e h
      rw [h1] at this
      have e1 : e' = e := by injection this
      subst e1
      rw [b1] at b2; injection b2 with b2; injection b2 with b2; subst b2
      rw [ha] at b1; injection b1 with b1; injection b1 with b1; subst b1
      rw [hll] at b4; injection b4 with b4; injection b4 with b4
      exact b5 b4.symm
    · exact prep_of_long _ a l (by rw [hl _ (by decide)]; exact ha) hll hne n

theorem catKeys_has (cat : Str) (h : cat = cVars ∨ cat = cCoords) : kAttrs ∈ catKeys cat ∧ kName ∈ catKeys cat ∧ kInherit ∈ catKeys cat := by
  rcases h with rfl | rfl <;> decide

/-- the value of a key in the merged child -/
theorem lookup_child (k p : CfKey) (e pe : CfEntry) (hpe : (pe.map (·.1)).Nodup) (f : Str) (h1 : f ≠ kProcessed) (h2 : f ≠ kInherit) :
    lookupS f (markDone (inheritFrom k p e pe)) =
      if k.1 ≠ p.1 ∧ f ∉ catKeys k.1 ∧ f ∈ catKeys p.1 then none else mergedOpt mergeSV (lookupS f e) (lookupS f pe) := by
  rw [lookup_markDone _ _ h1]
  unfold inheritFrom
  rw [lookupS_setS, if_neg h2, lookup_dropKeys, lookup_mergeEntry _ _ hpe]

/-- a child of a processed parent -/
theorem done_child (dims : CfDims) (k p : CfKey) (e pe : CfEntry) (h : WfEntry dims k.1 e) (hp : ∀ n, prepEntry n e = .ok e)
    (hpe : DoneEntry dims p.1 pe) : DoneEntry dims k.1 (markDone (inheritFrom k p e pe)) := by
  obtain ⟨a, ha, hna, ⟨l, hll⟩, ⟨sn, hs⟩, hax⟩ := h.attrs
  obtain ⟨b, hb, hnb, ⟨lb, hlb⟩, ⟨snb, hsb⟩, haxb⟩ := hpe.attrs
  obtain ⟨nm, hnm⟩ := h.names
  obtain ⟨nmb, hnmb⟩ := hpe.names
  have hc := catKeys_has k.1 h.hcat
  have hlne : l ≠ [] := by
    intro e0
    subst e0
    obtain ⟨e', h1, -, -, -, a1, a2, l1, l2, b1, b2, -, b3, b4, b5, b6, -⟩ := prep_ok dims k.1 [] e h
    rw [hp []] at h1
    have e1 : e = e' := by injection h1
    subst e1
    rw [b1] at b2; injection b2 with b2; injection b2 with b2; subst b2
    rw [ha] at b1; injection b1 with b1; injection b1 with b1; subst b1
    rw [hll] at b4; injection b4 with b4; injection b4 with b4
    exact b5 b4.symm
  have hat : (SV.dict a).truthy = true := by
    cases a with
    | nil => simp [lookupS] at hll
    | cons _ _ => simp [SV.truthy]
  have hA : lookupS kAttrs (markDone (inheritFrom k p e pe)) = some (.dict (mergeF a b)) := by
    rw [lookup_child _ _ _ _ hpe.nodup _ (by decide) (by decide), if_neg (by tauto), ha, hb]
    simp [mergedOpt, mergeSV, hat]
  have hLong : lookupS kLong (mergeF a b) = some (.list (l ++ lb)) := by
    rw [lookup_mergeF _ _ hnb, hll, hlb]
    have : (FV.list l).truthy = true := by cases l <;> simp_all [FV.truthy]
    simp [mergedOpt, mergeFV, this]
  have hw : WfEntry dims k.1 (markDone (inheritFrom k p e pe)) := by
    refine ⟨h.hcat, ?_, ?_, ?_, ?_, ?_⟩
    · exact setS_nodup _ _ _ (setS_nodup _ _ _ (dropKeys_nodup _ _ _ (mergeEntry_nodup _ _ h.nodup)))
    · intro f d hd
      by_cases hf : f = kProcessed
      · subst hf; simp [markDone, lookupS_setS] at hd
      by_cases hf2 : f = kInherit
      · subst hf2; rw [lookup_markDone _ _ (by decide)] at hd; simp [inheritFrom, lookupS_setS] at hd
      rw [lookup_child _ _ _ _ hpe.nodup _ hf hf2] at hd
      split at hd
      · simp at hd
      · cases hx : lookupS f e with
        | none => rw [hx] at hd; exact hpe.dicts f d hd
        | some w =>
          cases hy : lookupS f pe with
          | none => rw [hx, hy] at hd; exact h.dicts f d (by rw [hx]; exact hd)
          | some v =>
            rw [hx, hy] at hd
            simp only [mergedOpt, Option.some.injEq, mergeSV] at hd
            split at hd
            · subst hd; exact hpe.dicts f d hy
            · split at hd
              · injection hd with hd; subst hd; exact mergeF_nodup _ _ (h.dicts f _ hx)
              · simp at hd
              · subst hd; exact h.dicts f d hx
    · rw [lookup_child _ _ _ _ hpe.nodup _ (by decide) (by decide), if_neg (by tauto), hnm, hnmb]
      cases nm with
      | nil => exact ⟨nmb, by simp [mergedOpt, mergeSV, SV.truthy, FV.truthy]⟩
      | cons x t => exact ⟨(x :: t) ++ nmb, by simp [mergedOpt, mergeSV, mergeFV, SV.truthy, FV.truthy]⟩
    · right; left
      rw [lookup_markDone _ _ (by decide)]; unfold inheritFrom; rw [lookupS_setS]; simp
    · refine ⟨mergeF a b, hA, mergeF_nodup _ _ hna, ⟨_, hLong⟩, ?_, ?_, ?_⟩
      · rw [lookup_mergeF _ _ hnb, hs, hsb]
        cases sn with
        | nil => exact ⟨snb, by simp [mergedOpt, mergeFV, FV.truthy]⟩
        | cons x t => exact ⟨(x :: t) ++ snb, by simp [mergedOpt, mergeFV, FV.truthy]⟩
      · intro hcc
        rw [lookup_mergeF _ _ hnb]
        have := hax.1 hcc
        cases h1 : lookupS kAxis a with
        | none => exact absurd h1 this
        | some w => cases lookupS kAxis b <;> simp [mergedOpt]
      · intro v hv
        rw [lookup_mergeF _ _ hnb] at hv
        cases h1 : lookupS kAxis a with
        | none => rw [h1] at hv; exact haxb.2 v hv
        | some w =>
          rw [h1] at hv
          cases h2 : lookupS kAxis b with
          | none => rw [h2] at hv; simp only [mergedOpt, Option.some.injEq] at hv; subst hv; exact hax.2 _ h1
          | some u =>
            rw [h2] at hv
            simp only [mergedOpt, Option.some.injEq] at hv
            rcases hax.2 w h1 with rfl | ⟨s, rfl, hs⟩
            · simp only [mergeFV, FV.truthy, if_true] at hv; subst hv; exact haxb.2 _ h2
            · cases s with
              | nil => simp [mergeFV, FV.truthy] at hv; subst hv; exact haxb.2 _ h2
              | cons c s => simp [mergeFV, FV.truthy] at hv; subst hv; exact Or.inr ⟨_, rfl, hs⟩
  refine ⟨hw, ?_, ?_, markDone_markDone _⟩
  · apply inheritText_none
    rw [lookup_markDone _ _ (by decide)]; unfold inheritFrom; rw [lookupS_setS]; simp
  · intro n
    exact prep_of_long _ _ _ hA hLong (by simp [hlne]) n

end Xoa
