import Verif.MiscProps
import Mathlib.Data.List.Infix

/-!
# C49, C50: `dict_merge` (and `dict_check_defaults`)
-/

namespace Xoa

/-! ### association lists -/

theorem lookupK_setK {α : Type} (k k' : String) (v : α) (d : List (String × α)) :
    lookupK k (setK k' v d) = if k = k' then some v else lookupK k d := by
  induction d with
  | nil => simp [setK, lookupK]
  | cons p d ih =>
    obtain ⟨a, b⟩ := p
    simp only [setK]
    by_cases h : k' = a
    · subst h
      rw [if_pos rfl]
      simp only [lookupK]
      split <;> rfl
    · rw [if_neg h]
      simp only [lookupK, ih]
      by_cases hk : k = a
      · subst hk; simp [Ne.symm h]
      · simp [hk]

theorem lookupK_none_iff {α : Type} (k : String) (d : List (String × α)) :
    lookupK k d = none ↔ k ∉ d.map (·.1) := by
  induction d with
  | nil => simp [lookupK]
  | cons p d ih =>
    obtain ⟨a, b⟩ := p
    simp only [lookupK, List.map_cons, List.mem_cons, not_or]
    split
    · next h => simp [h]
    · next h => simp [h, ih]

theorem lookupK_mem {α : Type} (k : String) (v : α) (d : List (String × α)) (h : lookupK k d = some v) : (k, v) ∈ d := by
  induction d with
  | nil => simp [lookupK] at h
  | cons p d ih =>
    obtain ⟨a, b⟩ := p
    simp only [lookupK] at h
    split at h
    · next e => subst e; rw [Option.some.inj h]; simp
    · exact List.mem_cons_of_mem _ (ih h)

theorem lookupK_of_mem {α : Type} (k : String) (v : α) (d : List (String × α)) (hn : (d.map (·.1)).Nodup)
    (h : (k, v) ∈ d) : lookupK k d = some v := by
  induction d with
  | nil => simp at h
  | cons p d ih =>
    obtain ⟨a, b⟩ := p
    simp only [List.map_cons, List.nodup_cons] at hn
    simp only [lookupK]
    rcases List.mem_cons.1 h with e | h'
    · cases e; rw [if_pos rfl]
    · rw [if_neg, ih hn.2 h']
      intro e; subst e
      exact hn.1 (List.mem_map.2 ⟨(k, v), h', rfl⟩)

theorem setK_keys {α : Type} (k : String) (v : α) (d : List (String × α)) :
    (setK k v d).map (·.1) = if k ∈ d.map (·.1) then d.map (·.1) else d.map (·.1) ++ [k] := by
  induction d with
  | nil => simp [setK]
  | cons p d ih =>
    obtain ⟨a, b⟩ := p
    simp only [setK]
    by_cases h : k = a
    · subst h; simp
    · rw [if_neg h]
      simp only [List.map_cons, ih, List.mem_cons, h, false_or]
      split <;> rfl

theorem setK_nodup {α : Type} (k : String) (v : α) (d : List (String × α)) (h : (d.map (·.1)).Nodup) :
    ((setK k v d).map (·.1)).Nodup := by
  rw [setK_keys]
  split
  · exact h
  · next hk =>
    rw [List.nodup_append]
    refine ⟨h, by simp, ?_⟩
    intro a ha b hb
    simp at hb; subst hb
    intro e; subst e; exact hk ha

theorem setK_of_lookup {α : Type} (k : String) (v : α) (d : List (String × α)) (h : lookupK k d = some v) :
    setK k v d = d := by
  induction d with
  | nil => simp [lookupK] at h
  | cons p d ih =>
    obtain ⟨a, b⟩ := p
    simp only [lookupK] at h
    simp only [setK]
    split at h
    · next e => subst e; rw [if_pos rfl, Option.some.inj h]
    · next e => rw [if_neg e, ih h]

/-! ### the heap -/

mutual
/-- without `mergelists`, no list object is modified -/
theorem mergeVal_heap (o : MergeOpts) (ho : o.lists = false) (h : Heap) (w : PV) : ∀ v, (mergeVal o h w v).1 = h
  | .dict b => by
    unfold mergeVal
    cases w <;> try rfl
    simp only
    split
    · exact mergeItems_heap o ho h _ b
    · rfl
  | .list rb => by unfold mergeVal; cases w <;> simp [ho]
  | .tuple tb => by unfold mergeVal; cases w <;> simp; split <;> rfl
  | .none => by unfold mergeVal; rfl
  | .atom _ => by unfold mergeVal; rfl
  | .gen _ => by unfold mergeVal; rfl

theorem mergeItems_heap (o : MergeOpts) (ho : o.lists = false) (h : Heap) (out : PD) :
    ∀ d : List (String × PV), (mergeItems o h out d).1 = h
  | [] => by unfold mergeItems; rfl
  | kv :: rest => by
    unfold mergeItems
    simp only
    rw [mergeItems_heap o ho _ _ rest, mergeItem_heap o ho h out kv]

theorem mergeItem_heap (o : MergeOpts) (ho : o.lists = false) (h : Heap) (out : PD) :
    ∀ kv : String × PV, (mergeItem o h out kv).1 = h
  | (k, v) => by
    unfold mergeItem
    split
    · rfl
    · split
      · rfl
      · split
        · rfl
        · exact mergeVal_heap o ho h _ v
end

mutual
/-- list objects are only ever extended at their end -/
theorem mergeVal_prefix (o : MergeOpts) (h : Heap) (w : PV) : ∀ v r, h r <+: (mergeVal o h w v).1 r
  | .dict b, r => by
    unfold mergeVal
    cases w <;> try exact List.prefix_refl _
    simp only
    split
    · exact mergeItems_prefix o h _ b r
    · exact List.prefix_refl _
  | .list rb, r => by
    unfold mergeVal
    cases w <;> try exact List.prefix_refl _
    rename_i ra
    simp only
    split
    · have : h r <+: (if r = ra then h ra ++ h rb else h r) := by
        split
        · next e => subst e; exact List.prefix_append _ _
        · exact List.prefix_refl _
      split <;> exact this
    · exact List.prefix_refl _
  | .tuple tb, r => by
    unfold mergeVal
    cases w <;> try exact List.prefix_refl _
    simp only
    split <;> exact List.prefix_refl _
  | .none, r => by unfold mergeVal; exact List.prefix_refl _
  | .atom _, r => by unfold mergeVal; exact List.prefix_refl _
  | .gen _, r => by unfold mergeVal; exact List.prefix_refl _

theorem mergeItems_prefix (o : MergeOpts) (h : Heap) (out : PD) :
    ∀ (d : List (String × PV)) r, h r <+: (mergeItems o h out d).1 r
  | [], r => by unfold mergeItems; exact List.prefix_refl _
  | kv :: rest, r => by
    unfold mergeItems
    exact (mergeItem_prefix o h out kv r).trans (mergeItems_prefix o _ _ rest r)

theorem mergeItem_prefix (o : MergeOpts) (h : Heap) (out : PD) :
    ∀ (kv : String × PV) r, h r <+: (mergeItem o h out kv).1 r
  | (k, v), r => by
    unfold mergeItem
    split
    · exact List.prefix_refl _
    · split
      · exact List.prefix_refl _
      · split
        · exact List.prefix_refl _
        · exact mergeVal_prefix o h _ v r
end

theorem mergeAll_heap (o : MergeOpts) (ho : o.lists = false) : ∀ (dd : List PD) (h : Heap) (out : PD),
    (mergeAll o h out dd).1 = h := by
  intro dd
  induction dd with
  | nil => intro h out; rfl
  | cons d dd ih =>
    intro h out
    simp only [mergeAll]
    rw [ih, mergeItems_heap o ho]

/-- **C50**: without `mergelists` no input is modified (dictionaries are
never modified in place; here the list objects are not either). -/
theorem C50_inputs_unchanged (o : MergeOpts) (ho : o.lists = false) (h : Heap) (dd : List PD) :
    (dictMerge o h dd).1 = h := mergeAll_heap o ho dd h []

/-- **C95**: in general the only effect on the inputs is that some of their lists get
elements appended. -/
theorem C95_inputs_extended_partial (o : MergeOpts) (h : Heap) (dd : List PD) (r : Nat) :
    h r <+: (dictMerge o h dd).1 r := by
  unfold dictMerge
  generalize ([] : PD) = out
  induction dd generalizing h out with
  | nil => exact List.prefix_refl _
  | cons d dd ih => exact (mergeItems_prefix o h out d r).trans (ih _ _)

/-- **C95 is violated** with `mergelists=True`: `dict_merge({"e": l1}, {"e": l2})` appends the
content of `l2` to `l1`, so that the first argument is modified, and a second identical
call gives a different result. -/
theorem C95_inputs_unchanged_violated :
    ∃ (h : Heap) (d1 d2 : PD), let o : MergeOpts := { lists := true }
      let r1 := dictMerge o h [d1, d2]
      let r2 := dictMerge o r1.1 [d1, d2]
      lookupK "e" d1 = some (.list 0) ∧ h 0 = [.int 1] ∧ r1.1 0 = [.int 1, .int 3] ∧ r2.1 0 = [.int 1, .int 3, .int 3] :=
  ⟨fun r => if r = 0 then [.int 1] else [.int 3], [("e", .list 0)], [("e", .list 1)], rfl, rfl, rfl, rfl⟩

/-! ### one key -/

/-- what happens to the value of one key when an item with this key is merged -/
def combine (o : MergeOpts) (h : Heap) (w : Option PV) (v : PV) : Option PV :=
  if o.skipnones && v.isNone then w else
    match w with
    | none => some v
    | some w => if o.overwriteempty && isEmptyPV h w then some v else some (mergeVal o h w v).2

theorem mergeItem_lookup (o : MergeOpts) (h : Heap) (out : PD) (kv : String × PV) (k : String) :
    lookupK k (mergeItem o h out kv).2 = if k = kv.1 then combine o h (lookupK k out) kv.2 else lookupK k out := by
  obtain ⟨k', v⟩ := kv
  unfold mergeItem combine
  by_cases hk : k = k'
  · subst hk
    simp only [if_true]
    split
    · rfl
    · cases hl : lookupK k out with
      | none => simp [lookupK_setK]
      | some w =>
        simp only
        split <;> simp [lookupK_setK]
  · simp only [if_neg hk]
    split
    · rfl
    · split
      · rw [lookupK_setK, if_neg hk]
      · split <;> rw [lookupK_setK, if_neg hk]

theorem mergeItems_lookup (o : MergeOpts) (ho : o.lists = false) (h : Heap) (k : String) :
    ∀ (d : PD) (out : PD), (d.map (·.1)).Nodup →
    lookupK k (mergeItems o h out d).2 = match lookupK k d with
      | none => lookupK k out
      | some v => combine o h (lookupK k out) v := by
  intro d
  induction d with
  | nil => intro out _; rfl
  | cons kv d ih =>
    intro out hn
    obtain ⟨k', v⟩ := kv
    simp only [List.map_cons, List.nodup_cons] at hn
    unfold mergeItems
    simp only
    rw [mergeItem_heap o ho, ih _ hn.2, mergeItem_lookup]
    simp only [lookupK]
    by_cases hk : k = k'
    · subst hk
      rw [(lookupK_none_iff k d).2 hn.1]
      simp
    · rw [if_neg hk, if_neg hk]

/-- the successive values of a key in the dictionaries -/
def valuesOf (k : String) (dd : List PD) : List PV := dd.filterMap (lookupK k)

theorem mergeAll_lookup (o : MergeOpts) (ho : o.lists = false) (h : Heap) (k : String) :
    ∀ (dd : List PD) (out : PD), (∀ d ∈ dd, (d.map (·.1)).Nodup) →
    lookupK k (mergeAll o h out dd).2 = (valuesOf k dd).foldl (combine o h) (lookupK k out) := by
  intro dd
  induction dd with
  | nil => intro out _; rfl
  | cons d dd ih =>
    intro out hn
    simp only [mergeAll]
    rw [mergeItems_heap o ho, ih _ (fun d hd => hn d (by simp [hd])), mergeItems_lookup o ho h k d out (hn d (by simp))]
    unfold valuesOf
    rw [List.filterMap_cons]
    cases lookupK k d with
    | none => rfl
    | some v => rfl

/-- values that count: the `None`s are skipped with `skipnones` -/
def counts (o : MergeOpts) (v : PV) : Bool := !(o.skipnones && v.isNone)

theorem counts_true {o : MergeOpts} {v : PV} (h : counts o v = true) : (o.skipnones && v.isNone) = false := by
  unfold counts at h
  cases hb : (o.skipnones && v.isNone) <;> simp_all

theorem foldl_combine_filter (o : MergeOpts) (h : Heap) : ∀ (l : List PV) (w : Option PV),
    l.foldl (combine o h) w = (l.filter (counts o)).foldl (combine o h) w := by
  intro l
  induction l with
  | nil => intro w; rfl
  | cons v l ih =>
    intro w
    rw [List.foldl_cons, ih]
    by_cases hc : counts o v
    · rw [List.filter_cons_of_pos hc, List.foldl_cons]
    · rw [List.filter_cons_of_neg hc]
      have : (o.skipnones && v.isNone) = true := by simpa [counts] using hc
      unfold combine
      simp [this]

theorem combine_some (o : MergeOpts) (h : Heap) (w v : PV) : ∃ r, combine o h (some w) v = some r := by
  unfold combine
  split
  · exact ⟨_, rfl⟩
  · simp only
    split <;> exact ⟨_, rfl⟩

theorem foldl_combine_isSome (o : MergeOpts) (h : Heap) : ∀ (l : List PV) (w : PV),
    ∃ r, l.foldl (combine o h) (some w) = some r := by
  intro l
  induction l with
  | nil => intro w; exact ⟨w, rfl⟩
  | cons v l ih =>
    intro w
    obtain ⟨r, hr⟩ := combine_some o h w v
    rw [List.foldl_cons, hr]
    exact ih r

/-- **C49**: the keys of the result are exactly the keys of the inputs (those with a `None`
value not counting with `skipnones`). -/
theorem C49_keys (o : MergeOpts) (ho : o.lists = false) (h : Heap) (dd : List PD)
    (hn : ∀ d ∈ dd, (d.map (·.1)).Nodup) (k : String) :
    k ∈ (dictMerge o h dd).2.map (·.1) ↔ ∃ d ∈ dd, ∃ v, lookupK k d = some v ∧ (o.skipnones = true → v ≠ .none) := by
  have e : k ∈ (dictMerge o h dd).2.map (·.1) ↔ lookupK k (dictMerge o h dd).2 ≠ none := by
    rw [Ne, lookupK_none_iff, not_not]
  rw [e]
  unfold dictMerge
  rw [mergeAll_lookup o ho h k dd [] hn, foldl_combine_filter]
  have hm : ∀ v, v ∈ (valuesOf k dd).filter (counts o) ↔
      (∃ d ∈ dd, lookupK k d = some v) ∧ (o.skipnones = true → v ≠ .none) := by
    intro v
    rw [List.mem_filter]
    unfold valuesOf
    rw [List.mem_filterMap]
    constructor
    · rintro ⟨⟨d, hd, hv⟩, hc⟩
      refine ⟨⟨d, hd, hv⟩, ?_⟩
      intro hs e
      subst e
      simp [counts, hs, PV.isNone] at hc
    · rintro ⟨⟨d, hd, hv⟩, hc⟩
      refine ⟨⟨d, hd, hv⟩, ?_⟩
      cases v <;> simp_all [counts, PV.isNone]
  cases hl : (valuesOf k dd).filter (counts o) with
  | nil =>
    constructor
    · intro h1; exact absurd rfl h1
    · rintro ⟨d, hd, v, hv, hs⟩
      have := (hm v).2 ⟨⟨d, hd, hv⟩, hs⟩
      rw [hl] at this; simp at this
  | cons v l =>
    constructor
    · intro _
      have := (hm v).1 (by rw [hl]; simp)
      obtain ⟨⟨d, hd, hv⟩, hs⟩ := this
      exact ⟨d, hd, v, hv, hs⟩
    · intro _
      rw [List.foldl_cons]
      have hc : combine o h (lookupK k []) v = some v := by
        have : v ∈ (valuesOf k dd).filter (counts o) := by rw [hl]; simp
        have := (List.mem_filter.1 this).2
        unfold combine
        have hc : (o.skipnones && v.isNone) = false := counts_true this
        simp [hc, lookupK]
      rw [hc]
      obtain ⟨r, hr⟩ := foldl_combine_isSome o h l v
      rw [hr]; simp

/-- a value that is never merged with another one under these options -/
def PV.plain (o : MergeOpts) : PV → Bool
  | .dict _ => !o.subdicts
  | .list _ => !o.lists
  | .tuple _ => !o.tuples
  | _ => true

theorem mergeVal_plain (o : MergeOpts) (h : Heap) (w v : PV) (hp : w.plain o = true) : mergeVal o h w v = (h, w) := by
  cases w <;> cases v <;> simp_all [mergeVal, PV.plain]

/-- **C49**: priority to the first dictionary, for plain values. -/
theorem C49_first_priority (o : MergeOpts) (ho : o.lists = false) (hov : o.overwriteempty = false) (h : Heap)
    (dd : List PD) (hn : ∀ d ∈ dd, (d.map (·.1)).Nodup) (k : String) (v : PV) (rest : List PV)
    (hv : (valuesOf k dd).filter (counts o) = v :: rest) (hp : v.plain o = true) :
    lookupK k (dictMerge o h dd).2 = some v := by
  unfold dictMerge
  rw [mergeAll_lookup o ho h k dd [] hn, foldl_combine_filter, hv, List.foldl_cons]
  have hc : combine o h (lookupK k []) v = some v := by
    have : v ∈ (valuesOf k dd).filter (counts o) := by rw [hv]; simp
    have := (List.mem_filter.1 this).2
    unfold combine
    have hc : (o.skipnones && v.isNone) = false := counts_true this
    simp [hc, lookupK]
  rw [hc]
  clear hv hc
  induction rest with
  | nil => rfl
  | cons x rest ih =>
    rw [List.foldl_cons]
    have : combine o h (some v) x = some v := by
      unfold combine
      split
      · rfl
      · simp [hov, mergeVal_plain o h v x hp]
    rw [this, ih]

/-- the sub-dictionaries among values -/
def subDicts : List PV → List PD
  | [] => []
  | .dict d :: l => d :: subDicts l
  | _ :: l => subDicts l

theorem initFrom_noNone (o : MergeOpts) (d : PD) (h : ∀ p ∈ d, counts o p.2 = true) : initFrom o d = d := by
  unfold initFrom
  split
  · next hs =>
    rw [List.filter_eq_self]
    intro p hp
    have := h p hp
    simpa [counts, hs] using this
  · rfl

theorem mem_setK {α : Type} (k : String) (v : α) (d : List (String × α)) (p : String × α) (h : p ∈ setK k v d) :
    p = (k, v) ∨ p ∈ d := by
  induction d with
  | nil => simp [setK] at h; exact Or.inl h
  | cons q d ih =>
    simp only [setK] at h
    split at h
    · rcases List.mem_cons.1 h with e | h
      · exact Or.inl e
      · exact Or.inr (List.mem_cons_of_mem _ h)
    · rcases List.mem_cons.1 h with e | h
      · exact Or.inr (by rw [e]; simp)
      · rcases ih h with e | h
        · exact Or.inl e
        · exact Or.inr (List.mem_cons_of_mem _ h)

theorem mergeVal_counts (o : MergeOpts) (h : Heap) (w v : PV) (hw : counts o w = true) :
    counts o (mergeVal o h w v).2 = true := by
  cases w <;> cases v <;> simp only [mergeVal] <;> (try exact hw) <;> (repeat' split) <;>
    simp_all [counts, PV.isNone]

theorem mergeItems_counts (o : MergeOpts) : ∀ (d : PD) (h : Heap) (out : PD), (∀ p ∈ out, counts o p.2 = true) →
    ∀ p ∈ (mergeItems o h out d).2, counts o p.2 = true := by
  intro d
  induction d with
  | nil => intro h out ho p hp; exact ho p (by simpa [mergeItems] using hp)
  | cons kv d ih =>
    intro h out ho p hp
    obtain ⟨k, v⟩ := kv
    unfold mergeItems at hp
    refine ih _ _ ?_ p hp
    intro q hq
    unfold mergeItem at hq
    split at hq
    · exact ho q hq
    · next hc =>
      have hv : counts o v = true := by
        simp only [Bool.not_eq_true] at hc
        simp [counts, hc]
      split at hq
      · rcases mem_setK _ _ _ _ hq with e | h
        · rw [e]; exact hv
        · exact ho q h
      · next w hw =>
        split at hq
        · rcases mem_setK _ _ _ _ hq with e | h
          · rw [e]; exact hv
          · exact ho q h
        · rcases mem_setK _ _ _ _ hq with e | h'
          · rw [e]; exact mergeVal_counts o h w v (ho _ (lookupK_mem _ _ _ hw))
          · exact ho q h'

/-- merging a dictionary in an empty one copies it (but the `None`s with `skipnones`) -/
theorem mergeItems_nil (o : MergeOpts) : ∀ (d : PD) (h : Heap) (out : PD), ((out ++ d).map (·.1)).Nodup →
    mergeItems o h out d = (h, out ++ initFrom o d) := by
  intro d
  induction d with
  | nil => intro h out _; simp [mergeItems, initFrom]
  | cons kv d ih =>
    intro h out hn
    obtain ⟨k, v⟩ := kv
    unfold mergeItems mergeItem
    have hk : k ∉ out.map (·.1) := by
      simp only [List.map_append, List.map_cons] at hn
      rw [List.nodup_append] at hn
      intro hk
      exact hn.2.2 k hk k (by simp) rfl
    have hset : setK k v out = out ++ [(k, v)] := by
      clear ih hn
      induction out with
      | nil => rfl
      | cons p out ih =>
        obtain ⟨a, b⟩ := p
        simp only [List.map_cons, List.mem_cons, not_or] at hk
        simp only [setK]
        rw [if_neg hk.1, ih hk.2]; rfl
    have hn1 : ((out ++ d).map (·.1)).Nodup := by
      refine List.Nodup.sublist ?_ hn
      simp only [List.map_append, List.map_cons]
      exact List.Sublist.append_left (List.sublist_cons_self _ _) _
    split
    · next hs =>
      simp only
      rw [ih h out hn1]
      simp only [Bool.and_eq_true] at hs
      simp [initFrom, hs.1, hs.2]
    · next hs =>
      rw [(lookupK_none_iff k out).2 hk]
      simp only
      rw [hset, ih h (out ++ [(k, v)]) (by simpa using hn)]
      unfold initFrom
      split
      · next h1 =>
        simp only [h1, Bool.true_and, Bool.not_eq_true] at hs
        simp [hs]
      · simp

/-- **C49**: sub-dictionaries are merged recursively: if the first value of a key is a
dictionary, the result is the merge of it with the sub-dictionaries that the following
inputs have at that key, in order. -/
theorem C49_subdicts (o : MergeOpts) (ho : o.lists = false) (hov : o.overwriteempty = false) (hs : o.subdicts = true)
    (h : Heap) (dd : List PD) (hn : ∀ d ∈ dd, (d.map (·.1)).Nodup) (k : String) (a : PD) (rest : List PV)
    (ha : (a.map (·.1)).Nodup)
    (hv : (valuesOf k dd).filter (counts o) = .dict a :: rest) :
    lookupK k (dictMerge o h dd).2 =
      some (.dict (if subDicts rest = [] then a else (dictMerge o h (a :: subDicts rest)).2)) := by
  unfold dictMerge
  rw [mergeAll_lookup o ho h k dd [] hn, foldl_combine_filter, hv, List.foldl_cons]
  have hc : combine o h (lookupK k []) (.dict a) = some (.dict a) := by
    simp [combine, lookupK, PV.isNone]
  rw [hc]
  have hstep : ∀ (X : PD) (x : PV), combine o h (some (.dict X)) x = some (match x with
      | .dict b => .dict (mergeItems o h (initFrom o X) b).2
      | _ => .dict X) := by
    intro X x
    unfold combine
    cases x <;> simp [hov, PV.isNone, mergeVal, hs]
  -- once no `None` is left
  have key : ∀ (l : List PV) (X : PD), (∀ p ∈ X, counts o p.2 = true) →
      l.foldl (combine o h) (some (.dict X)) = some (.dict (mergeAll o h X (subDicts l)).2) := by
    intro l
    induction l with
    | nil => intro X _; rfl
    | cons x l ih =>
      intro X hX
      rw [List.foldl_cons, hstep]
      cases x with
      | dict b =>
        simp only [subDicts, mergeAll]
        rw [initFrom_noNone o X hX, ih _ (mergeItems_counts o b h X hX), mergeItems_heap o ho]
      | _ => simp only [subDicts]; exact ih X hX
  have hinit : ∀ p ∈ initFrom o a, counts o p.2 = true := by
    intro p hp
    unfold initFrom at hp
    split at hp
    · next h1 =>
      have := (List.mem_filter.1 hp).2
      simpa [counts, h1] using this
    · next h1 => simp [counts, h1]
  clear hv hc
  induction rest with
  | nil => rfl
  | cons x rest ih =>
    rw [List.foldl_cons, hstep]
    cases x with
    | dict b =>
      simp only [subDicts, reduceCtorEq, if_false, mergeAll]
      rw [key _ _ (mergeItems_counts o b h _ hinit), mergeItems_nil o a h [] (by simpa using ha)]
      simp only [List.nil_append]
      rw [mergeItems_heap o ho]
    | _ => simp only [subDicts]; exact ih

/-- value at a path of keys -/
def getPath : List String → PV → Option PV
  | [], v => some v
  | k :: p, .dict d => (lookupK k d).bind (getPath p)
  | _ :: _, _ => none

/-- all dictionaries inside a value have distinct keys -/
inductive PV.WF : PV → Prop
  | none : PV.WF .none
  | atom (a) : PV.WF (.atom a)
  | list (r) : PV.WF (.list r)
  | tuple (l) : PV.WF (.tuple l)
  | gen (l) : PV.WF (.gen l)
  | dict (d) : (d.map (·.1)).Nodup → (∀ k v, lookupK k d = some v → PV.WF v) → PV.WF (.dict d)

/-- **C49**: at any depth, a plain value (not `None`) of the first dictionary is found in
the result at the same path. -/
theorem C49_path_priority (o : MergeOpts) (ho : o.lists = false) (hov : o.overwriteempty = false)
    (hs : o.subdicts = true) (h : Heap) : ∀ (p : List String) (d : PD) (dd : List PD) (v : PV), p ≠ [] →
    (∀ d' ∈ d :: dd, PV.WF (.dict d')) → getPath p (.dict d) = some v → v.plain o = true → v ≠ .none →
    getPath p (.dict (dictMerge o h (d :: dd)).2) = some v := by
  intro p
  induction p with
  | nil => intro d dd v hp; exact absurd rfl hp
  | cons k p ih =>
    intro d dd v _ hwf hg hpl hnn
    have hn : ∀ d' ∈ d :: dd, (d'.map (·.1)).Nodup := by
      intro d' hd'
      cases hwf d' hd' with
      | dict _ h _ => exact h
    simp only [getPath] at hg ⊢
    cases hl : lookupK k d with
    | none => rw [hl] at hg; simp at hg
    | some w =>
      rw [hl] at hg
      simp only [Option.bind_some] at hg
      have hw : counts o w = true := by
        cases w <;> simp [counts, PV.isNone]
        cases p with
        | nil => simp [getPath] at hg; exact absurd hg.symm hnn
        | cons _ _ => simp [getPath] at hg
      have hvals : (valuesOf k (d :: dd)).filter (counts o) = w :: (valuesOf k dd).filter (counts o) := by
        unfold valuesOf
        rw [List.filterMap_cons, hl]
        simp only
        rw [List.filter_cons_of_pos hw]
      cases p with
      | nil =>
        simp [getPath] at hg
        subst hg
        rw [C49_first_priority o ho hov h _ hn k w _ hvals hpl]; rfl
      | cons k2 p2 =>
        cases w with
        | dict a =>
          have hwfa : PV.WF (.dict a) := by
            cases hwf d (by simp) with
            | dict _ _ h2 => exact h2 k _ hl
          have hna : (a.map (·.1)).Nodup := by cases hwfa with | dict _ h _ => exact h
          rw [C49_subdicts o ho hov hs h _ hn k a _ hna hvals]
          simp only [Option.bind_some]
          split
          · exact hg
          · refine ih a _ v (by simp) ?_ hg hpl hnn
            intro d' hd'
            rcases List.mem_cons.1 hd' with e | hd'
            · rw [e]; exact hwfa
            · -- a sub-dictionary of one of the inputs
              have hsub : ∀ (l : List PV), d' ∈ subDicts l → PV.dict d' ∈ l := by
                intro l
                induction l with
                | nil => intro h; simp [subDicts] at h
                | cons x l ih =>
                  intro h
                  cases x with
                  | dict b =>
                    simp only [subDicts, List.mem_cons] at h
                    rcases h with e | h
                    · rw [e]; simp
                    · exact List.mem_cons_of_mem _ (ih h)
                  | _ => exact List.mem_cons_of_mem _ (ih (by simpa [subDicts] using h))
              have := (List.mem_filter.1 (hsub _ hd')).1
              unfold valuesOf at this
              rw [List.mem_filterMap] at this
              obtain ⟨d2, hd2, hl2⟩ := this
              cases hwf d2 (List.mem_cons_of_mem _ hd2) with
              | dict _ _ h2 => exact h2 k _ hl2
        | _ => simp [getPath] at hg

/-- **C49** (`overwriteempty`): the first non-empty value wins, else the last one. -/
theorem C49_overwriteempty (o : MergeOpts) (ho : o.lists = false) (hov : o.overwriteempty = true) (h : Heap)
    (dd : List PD) (hn : ∀ d ∈ dd, (d.map (·.1)).Nodup) (k : String)
    (hp : ∀ v ∈ valuesOf k dd, v.plain o = true) :
    lookupK k (dictMerge o h dd).2 =
      match ((valuesOf k dd).filter (counts o)).find? (fun v => !isEmptyPV h v) with
      | some v => some v
      | none => ((valuesOf k dd).filter (counts o)).getLast? := by
  unfold dictMerge
  rw [mergeAll_lookup o ho h k dd [] hn, foldl_combine_filter]
  have hp' : ∀ v ∈ (valuesOf k dd).filter (counts o), v.plain o = true ∧ counts o v = true :=
    fun v hv => ⟨hp v (List.mem_filter.1 hv).1, (List.mem_filter.1 hv).2⟩
  generalize (valuesOf k dd).filter (counts o) = l at hp'
  have hcomb : ∀ (w : Option PV) (v : PV), counts o v = true → (∀ x, w = some x → x.plain o = true) →
      combine o h w v = match w with
        | none => some v
        | some x => if isEmptyPV h x then some v else some x := by
    intro w v hv hw
    unfold combine
    have : (o.skipnones && v.isNone) = false := counts_true hv
    rw [this]
    cases w with
    | none => rfl
    | some x => simp [hov, mergeVal_plain o h x v (hw x rfl)]
  have nonempty : ∀ (l : List PV), (∀ v ∈ l, v.plain o = true ∧ counts o v = true) → ∀ x, isEmptyPV h x = false →
      x.plain o = true → l.foldl (combine o h) (some x) = some x := by
    intro l
    induction l with
    | nil => intro _ x _ _; rfl
    | cons v l ih =>
      intro hl x hx hxp
      rw [List.foldl_cons, hcomb _ v (hl v (by simp)).2 (by intro y hy; cases hy; exact hxp)]
      simp only [hx, Bool.false_eq_true, if_false]
      exact ih (fun v hv => hl v (by simp [hv])) x hx hxp
  have main : ∀ (l : List PV), (∀ v ∈ l, v.plain o = true ∧ counts o v = true) → ∀ w : Option PV,
      (∀ x, w = some x → x.plain o = true ∧ isEmptyPV h x = true) →
      l.foldl (combine o h) w = match l.find? (fun v => !isEmptyPV h v) with
        | some v => some v
        | none => (match l.getLast? with | some v => some v | none => w) := by
    intro l
    induction l with
    | nil => intro _ w _; rfl
    | cons v l ih =>
      intro hl w hw
      have hv := hl v (by simp)
      have hl' : ∀ v ∈ l, v.plain o = true ∧ counts o v = true := fun v hv => hl v (by simp [hv])
      have e : combine o h w v = some v := by
        rw [hcomb w v hv.2 (fun x hx => (hw x hx).1)]
        cases w with
        | none => rfl
        | some x => simp [(hw x rfl).2]
      rw [List.foldl_cons, e]
      by_cases hev : isEmptyPV h v = true
      · rw [ih hl' (some v) (by intro x hx; cases hx; exact ⟨hv.1, hev⟩)]
        rw [List.find?_cons_of_neg (by simp [hev])]
        cases hf : l.find? (fun v => !isEmptyPV h v) with
        | some y => rfl
        | none =>
          simp only
          rw [List.getLast?_cons]
          cases l.getLast? <;> rfl
      · simp only [Bool.not_eq_true] at hev
        rw [nonempty l hl' v hev hv.1, List.find?_cons_of_pos (by simp [hev])]
  rw [main l hp' (lookupK k []) (by intro x hx; simp [lookupK] at hx)]
  cases l.find? (fun v => !isEmptyPV h v) with
  | some v => rfl
  | none => simp only [lookupK]; cases l.getLast? <;> rfl

/-- **C49** (`overwriteempty`, what is empty): when the values set for a key begin with values that are `None`, `0`, the empty text, or an empty list, tuple or dictionary, and then comes a value
that is none of these (a generator is never one), this value is that of the result, whatever comes after. When there is no other value, the last one is kept. -/
theorem C49_overwriteempty_values (o : MergeOpts) (ho : o.lists = false) (hov : o.overwriteempty = true) (h : Heap)
    (dd : List PD) (hn : ∀ d ∈ dd, (d.map (·.1)).Nodup) (k : String)
    (hp : ∀ v ∈ valuesOf k dd, v.plain o = true) (hs : o.skipnones = false) (nothing : PV → Prop)
    (hnot : ∀ v, nothing v ↔ v = .none ∨ v = .atom (.int 0) ∨ v = .atom (.str "") ∨ (∃ r, v = .list r ∧ h r = []) ∨ v = .tuple [] ∨ v = .dict []) :
    (∀ a v b, valuesOf k dd = a ++ v :: b → (∀ x ∈ a, nothing x) → ¬ nothing v → lookupK k (dictMerge o h dd).2 = some v) ∧
    (∀ a v, valuesOf k dd = a ++ [v] → (∀ x ∈ a, nothing x) → lookupK k (dictMerge o h dd).2 = some v) := by
  have hemp : ∀ v, isEmptyPV h v = true ↔ nothing v := by
    intro v
    rw [hnot]
    cases v with
    | atom a => cases a <;> simp [isEmptyPV]
    | _ => simp [isEmptyPV]
  have hc : (valuesOf k dd).filter (counts o) = valuesOf k dd := by
    rw [List.filter_eq_self]; intro v _; simp [counts, hs]
  have main := C49_overwriteempty o ho hov h dd hn k hp
  rw [hc] at main
  have hnone : ∀ a : List PV, (∀ x ∈ a, nothing x) → a.find? (fun v => !isEmptyPV h v) = none := by
    intro a ha
    rw [List.find?_eq_none]
    intro x hx; simp [(hemp x).2 (ha x hx)]
  refine ⟨fun a v b e ha hv => ?_, fun a v e ha => ?_⟩
  · rw [main, e, List.find?_append, hnone a ha]
    have : isEmptyPV h v = false := by
      cases hh : isEmptyPV h v with
      | false => rfl
      | true => exact absurd ((hemp v).1 hh) hv
    simp [this]
  · rw [main, e, List.find?_append, hnone a ha]
    cases hh : isEmptyPV h v <;> simp [hh]

example (h : Heap) : lookupK "a" (dictMerge { overwriteempty := true, skipnones := false } h [[("a", .none)], [("a", .atom (.int 0))], [("b", .none)], [("a", .atom (.str "x"))], [("a", .atom (.int 2))]]).2 =
    some (.atom (.str "x")) :=
  (C49_overwriteempty_values { overwriteempty := true, skipnones := false } rfl rfl h
    [[("a", .none)], [("a", .atom (.int 0))], [("b", .none)], [("a", .atom (.str "x"))], [("a", .atom (.int 2))]] (by decide) "a" (by decide) rfl _ (fun _ => Iff.rfl)).1
    [.none, .atom (.int 0)] (.atom (.str "x")) [.atom (.int 2)] rfl (by simp) (by simp)

/-! ### idempotence and associativity -/

mutual
/-- no `None` inside, distinct keys, at every depth -/
def cleanV : PV → Prop
  | .none => False
  | .dict d => (d.map (·.1)).Nodup ∧ cleanItems d
  | .atom _ => True
  | .list _ => True
  | .tuple _ => True
  | .gen _ => True
/-- see `cleanV` -/
def cleanItems : List (String × PV) → Prop
  | [] => True
  | kv :: r => cleanItem kv ∧ cleanItems r
/-- see `cleanV` -/
def cleanItem : String × PV → Prop
  | (_, v) => cleanV v
end

theorem cleanItems_noNone (o : MergeOpts) : ∀ d : PD, cleanItems d → ∀ p ∈ d, counts o p.2 = true := by
  intro d
  induction d with
  | nil => intro _ p hp; simp at hp
  | cons kv d ih =>
    intro hc p hp
    unfold cleanItems at hc
    rcases List.mem_cons.1 hp with e | hp
    · subst e
      obtain ⟨k, v⟩ := p
      have := hc.1
      unfold cleanItem at this
      cases v <;> simp_all [counts, PV.isNone, cleanV]
    · exact ih hc.2 p hp

mutual
theorem mergeVal_self (o : MergeOpts) (hl : o.lists = false) (ht : o.tuples = false) (h : Heap) :
    ∀ v, cleanV v → mergeVal o h v v = (h, v)
  | .dict d, hc => by
    unfold cleanV at hc
    unfold mergeVal
    simp only
    split
    · rw [initFrom_noNone o d (cleanItems_noNone o d hc.2),
        mergeItems_self o hl ht h d d hc.2 (fun k v hkv => lookupK_of_mem k v d hc.1 hkv)]
    · rfl
  | .list _, _ => by simp [mergeVal, hl]
  | .tuple _, _ => by simp [mergeVal, ht]
  | .none, hc => by unfold cleanV at hc; exact hc.elim
  | .atom _, _ => by simp [mergeVal]
  | .gen _, _ => by simp [mergeVal]

/-- merging again items that are already there changes nothing -/
theorem mergeItems_self (o : MergeOpts) (hl : o.lists = false) (ht : o.tuples = false) (h : Heap) (out : PD) :
    ∀ d : List (String × PV), cleanItems d → (∀ k v, (k, v) ∈ d → lookupK k out = some v) →
      mergeItems o h out d = (h, out)
  | [], _, _ => by unfold mergeItems; rfl
  | kv :: rest, hc, hin => by
    unfold cleanItems at hc
    unfold mergeItems
    simp only
    rw [mergeItem_self o hl ht h out kv hc.1 (hin kv.1 kv.2 (by simp))]
    exact mergeItems_self o hl ht h out rest hc.2 (fun k v hkv => hin k v (by simp [hkv]))

theorem mergeItem_self (o : MergeOpts) (hl : o.lists = false) (ht : o.tuples = false) (h : Heap) (out : PD) :
    ∀ kv : String × PV, cleanItem kv → lookupK kv.1 out = some kv.2 → mergeItem o h out kv = (h, out)
  | (k, v), hc, hin => by
    unfold cleanItem at hc
    simp only at hin
    unfold mergeItem
    rw [hin]
    split
    · rfl
    · simp only
      split
      · rw [setK_of_lookup k v out hin]
      · rw [mergeVal_self o hl ht h v hc, setK_of_lookup k v out hin]
end

/-- **C49**: merging a dictionary with itself gives it back (whatever `overwriteempty`,
`skipnones`, `mergesubdicts`; lists and tuples not being concatenated). -/
theorem C49_idempotent (o : MergeOpts) (hl : o.lists = false) (ht : o.tuples = false) (h : Heap) (d : PD)
    (hc : cleanV (.dict d)) : (dictMerge o h [d, d]).2 = d := by
  unfold cleanV at hc
  unfold dictMerge mergeAll
  simp only
  rw [mergeItems_nil o d h [] (by simpa using hc.1)]
  simp only [List.nil_append]
  rw [initFrom_noNone o d (cleanItems_noNone o d hc.2)]
  unfold mergeAll
  rw [mergeItems_self o hl ht h d d hc.2 (fun k v hkv => lookupK_of_mem k v d hc.1 hkv)]
  rfl

theorem mergeItems_nodup (o : MergeOpts) : ∀ (d : PD) (h : Heap) (out : PD), (out.map (·.1)).Nodup →
    ((mergeItems o h out d).2.map (·.1)).Nodup := by
  intro d
  induction d with
  | nil => intro h out hn; exact hn
  | cons kv d ih =>
    intro h out hn
    obtain ⟨k, v⟩ := kv
    unfold mergeItems
    apply ih
    unfold mergeItem
    split
    · exact hn
    · split
      · exact setK_nodup _ _ _ hn
      · split <;> exact setK_nodup _ _ _ hn

theorem mergeAll_nodup (o : MergeOpts) : ∀ (dd : List PD) (h : Heap) (out : PD), (out.map (·.1)).Nodup →
    ((mergeAll o h out dd).2.map (·.1)).Nodup := by
  intro dd
  induction dd with
  | nil => intro h out hn; exact hn
  | cons d dd ih => intro h out hn; exact ih _ _ (mergeItems_nodup o d h out hn)

/-- **C49**: the result has distinct keys (it is a dictionary). -/
theorem C49_nodup (o : MergeOpts) (h : Heap) (dd : List PD) : ((dictMerge o h dd).2.map (·.1)).Nodup :=
  mergeAll_nodup o dd h [] (by simp)

/-- **C49**: associativity on plain values: grouping the inputs does not change any value. -/
theorem C49_assoc (o : MergeOpts) (hl : o.lists = false) (hov : o.overwriteempty = false) (h : Heap) (a b c : PD)
    (hn : ∀ d ∈ [a, b, c], (d.map (·.1)).Nodup)
    (hp : ∀ d ∈ [a, b, c], ∀ k v, lookupK k d = some v → v.plain o = true) (k : String) :
    lookupK k (dictMerge o h [(dictMerge o h [a, b]).2, c]).2 = lookupK k (dictMerge o h [a, b, c]).2 ∧
    lookupK k (dictMerge o h [a, (dictMerge o h [b, c]).2]).2 = lookupK k (dictMerge o h [a, b, c]).2 := by
  -- first value that counts
  have look : ∀ dd : List PD, (∀ d ∈ dd, (d.map (·.1)).Nodup) → (∀ d ∈ dd, ∀ v, lookupK k d = some v → v.plain o = true) →
      lookupK k (dictMerge o h dd).2 = ((valuesOf k dd).filter (counts o)).head? := by
    intro dd hn hp
    cases hv : (valuesOf k dd).filter (counts o) with
    | nil =>
      unfold dictMerge
      rw [mergeAll_lookup o hl h k dd [] hn, foldl_combine_filter, hv]; rfl
    | cons v rest =>
      have hm : v ∈ (valuesOf k dd).filter (counts o) := by rw [hv]; simp
      have := (List.mem_filter.1 hm).1
      unfold valuesOf at this
      rw [List.mem_filterMap] at this
      obtain ⟨d, hd, hl'⟩ := this
      rw [C49_first_priority o hl hov h dd hn k v rest hv (hp d hd v hl')]; rfl
  have vals : ∀ d (dd : List PD), ((valuesOf k (d :: dd)).filter (counts o)).head? =
      ((lookupK k d).filter (counts o)).or (((valuesOf k dd).filter (counts o)).head?) := by
    intro d dd
    unfold valuesOf
    rw [List.filterMap_cons]
    cases lookupK k d with
    | none => rfl
    | some v =>
      simp only
      by_cases hc : counts o v
      · simp [List.filter_cons_of_pos hc, Option.filter, hc]
      · simp [List.filter_cons_of_neg hc, Option.filter, hc]
  have filt : ∀ dd : List PD, (((valuesOf k dd).filter (counts o)).head?).filter (counts o) =
      ((valuesOf k dd).filter (counts o)).head? := by
    intro dd
    cases hv : (valuesOf k dd).filter (counts o) with
    | nil => rfl
    | cons v rest =>
      have hm : v ∈ (valuesOf k dd).filter (counts o) := by rw [hv]; simp
      have := (List.mem_filter.1 hm).2
      simp [Option.filter, this]
  have hab : ∀ x ∈ [a, b], (x.map (·.1)).Nodup := fun x hx => hn x (by simp at hx ⊢; tauto)
  have hbc : ∀ x ∈ [b, c], (x.map (·.1)).Nodup := fun x hx => hn x (by simp at hx ⊢; tauto)
  have pab : ∀ x ∈ [a, b], ∀ v, lookupK k x = some v → v.plain o = true :=
    fun x hx => hp x (by simp at hx ⊢; tauto) k
  have pbc : ∀ x ∈ [b, c], ∀ v, lookupK k x = some v → v.plain o = true :=
    fun x hx => hp x (by simp at hx ⊢; tauto) k
  have plainM : ∀ dd : List PD, (∀ d ∈ dd, (d.map (·.1)).Nodup) → (∀ d ∈ dd, ∀ v, lookupK k d = some v → v.plain o = true) →
      ∀ v, lookupK k (dictMerge o h dd).2 = some v → v.plain o = true := by
    intro dd hn hp v hv
    rw [look dd hn hp] at hv
    have := List.mem_of_mem_head? hv
    have := (List.mem_filter.1 this).1
    unfold valuesOf at this
    rw [List.mem_filterMap] at this
    obtain ⟨d, hd, hl'⟩ := this
    exact hp d hd v hl'
  have nil : ((valuesOf k ([] : List PD)).filter (counts o)).head? = none := rfl
  have habc : ∀ x ∈ [a, b, c], ∀ v, lookupK k x = some v → v.plain o = true := fun x hx => hp x hx k
  constructor
  · rw [look [_, c], look [a, b, c] hn habc]
    · rw [vals, look [a, b] hab pab, filt, vals a [b], vals b [], vals c [], vals a [b, c], vals b [c], vals c [], nil]
      cases (lookupK k a).filter (counts o) <;> cases (lookupK k b).filter (counts o) <;> rfl
    · intro d hd
      simp only [List.mem_cons, List.not_mem_nil, or_false] at hd
      rcases hd with e | e <;> rw [e]
      · exact C49_nodup o h _
      · exact hn c (by simp)
    · intro d hd
      simp only [List.mem_cons, List.not_mem_nil, or_false] at hd
      rcases hd with e | e <;> rw [e]
      · exact plainM _ hab pab
      · exact hp c (by simp) k
  · rw [look [a, _], look [a, b, c] hn habc]
    · rw [vals a [(dictMerge o h [b, c]).2], vals (dictMerge o h [b, c]).2 [], look [b, c] hbc pbc, filt, vals b [c],
        vals c [], vals a [b, c], vals b [c], vals c [], nil]
      cases (lookupK k a).filter (counts o) <;> cases (lookupK k b).filter (counts o) <;>
        cases (lookupK k c).filter (counts o) <;> rfl
    · intro d hd
      simp only [List.mem_cons, List.not_mem_nil, or_false] at hd
      rcases hd with e | e <;> rw [e]
      · exact hn a (by simp)
      · exact C49_nodup o h _
    · intro d hd
      simp only [List.mem_cons, List.not_mem_nil, or_false] at hd
      rcases hd with e | e <;> rw [e]
      · exact hp a (by simp) k
      · exact plainM _ hbc pbc

/-- ... but not when a key holds a dictionary in some inputs and something else in others. -/
theorem C94_assoc_mixed_counterexample :
    ∃ a b c : PD, let m := fun dd => (dictMerge {} (fun _ => []) dd).2
      getPath ["k", "y"] (.dict (m [a, b, c])) = some (.atom (.int 2)) ∧
      getPath ["k", "y"] (.dict (m [a, m [b, c]])) = none :=
  ⟨[("k", .dict [("x", .atom (.int 1))])], [("k", .atom (.int 0))], [("k", .dict [("y", .atom (.int 2))])],
    rfl, rfl⟩

/-! ### lists and tuples -/

/-- **C49** (`mergelists`): two lists at the same key are concatenated in order. -/
theorem C49_lists (o : MergeOpts) (hl : o.lists = true) (hu : o.uniquify = false) (hov : o.overwriteempty = false)
    (h : Heap) (k : String) (r1 r2 : Nat) :
    let r := dictMerge o h [[(k, .list r1)], [(k, .list r2)]]
    lookupK k r.2 = some (.list r1) ∧ r.1 r1 = h r1 ++ h r2 := by
  simp [dictMerge, mergeAll, mergeItems, mergeItem, mergeVal, lookupK, setK, PV.isNone, hl, hu, hov]

/-- **C49** (`mergetuples`): tuples of plain values are concatenated over all inputs, then
made unique if asked. -/
theorem C49_tuples (o : MergeOpts) (hl : o.lists = false) (ht : o.tuples = true) (hu : o.uniquify = false)
    (hov : o.overwriteempty = false) (h : Heap)
    (dd : List PD) (hn : ∀ d ∈ dd, (d.map (·.1)).Nodup) (k : String) (ts : List (List Atom)) (hts : ts ≠ [])
    (hv : valuesOf k dd = ts.map PV.tuple) :
    lookupK k (dictMerge o h dd).2 = some (.tuple ts.flatten) := by
  unfold dictMerge
  rw [mergeAll_lookup o hl h k dd [] hn, hv]
  cases ts with
  | nil => exact absurd rfl hts
  | cons t ts =>
    rw [List.map_cons, List.foldl_cons]
    have : combine o h (lookupK k []) (.tuple t) = some (.tuple t) := by simp [combine, lookupK, PV.isNone]
    rw [this]
    clear hv this hts
    induction ts generalizing t with
    | nil => simp
    | cons t2 ts ih =>
      rw [List.map_cons, List.foldl_cons]
      have : combine o h (some (.tuple t)) (.tuple t2) = some (.tuple (t ++ t2)) := by
        simp [combine, hov, PV.isNone, mergeVal, ht, hu]
      rw [this, ih]; simp

/-- **C94 is violated** with `mergelists=True, uniquify=True`: the merged list is replaced by
a generator, so that the list of a third dictionary is dropped (and the result is not a
list). -/
theorem C94_uniquify_violated :
    ∃ (h : Heap) (d1 d2 d3 : PD), let r := dictMerge { lists := true, uniquify := true } h [d1, d2, d3]
      lookupK "e" d3 = some (.list 2) ∧ h 2 = [.int 3] ∧
      lookupK "e" r.2 = some (.gen [.int 1, .int 2]) :=
  ⟨fun r => [.int (r + 1)], [("e", .list 0)], [("e", .list 1)], [("e", .list 2)], rfl, rfl, rfl⟩

/-! ### a concrete instance -/

def exD1 : PD := [("a", .atom (.int 3)), ("s", .dict [("x", .atom (.int 1)), ("n", .none)]), ("z", .none)]
def exD2 : PD := [("a", .atom (.int 5)), ("c", .atom (.int 7)), ("s", .dict [("x", .atom (.int 9)), ("y", .atom (.int 2))])]

example : (valuesOf "s" [exD1, exD2]).filter (counts {}) =
    [.dict [("x", .atom (.int 1)), ("n", .none)], .dict [("x", .atom (.int 9)), ("y", .atom (.int 2))]] := rfl
example : (dictMerge {} (fun _ => []) [exD1, exD2]).2 =
    [("a", .atom (.int 3)), ("s", .dict [("x", .atom (.int 1)), ("y", .atom (.int 2))]), ("c", .atom (.int 7))] := rfl
example : (exD1.map (·.1)).Nodup ∧ (exD2.map (·.1)).Nodup := by decide
example : getPath ["s", "x"] (.dict exD1) = some (.atom (.int 1)) := rfl

/-! ### dict_check_defaults -/

/-- **C49** (`dict_check_defaults`): existing items are kept, missing ones take the default. -/
theorem C49_check_defaults {α : Type} (dd defaults : List (String × α)) (hn : (defaults.map (·.1)).Nodup) (k : String) :
    lookupK k (dictCheckDefaults dd defaults) = (lookupK k dd).or (lookupK k defaults) := by
  unfold dictCheckDefaults
  induction defaults generalizing dd with
  | nil => simp [lookupK]
  | cons kv ds ih =>
    obtain ⟨k', v⟩ := kv
    simp only [List.map_cons, List.nodup_cons] at hn
    rw [List.foldl_cons, ih _ hn.2]
    simp only [lookupK]
    by_cases hk : k = k'
    · subst hk
      rw [if_pos rfl]
      cases hl : lookupK k dd with
      | some w => simp [hl]
      | none => simp [lookupK_setK]
    · rw [if_neg hk]
      cases hl : lookupK k' dd with
      | some w => rfl
      | none => simp [lookupK_setK, hk]

end Xoa
