import Verif.SGLocFormatProps

/-! # Merging and patching located attributes (C42) -/

namespace Xoa

/-! ## Merging two values -/

/-- the location that results from a merge: the requested one, else the one of the second value,
else the one of the first value -/
def mergedLoc (sg : SG) (attr : SGAttr) (v0 v1 : Str) : Option Str :=
  match (parseAttr sg attr v1).2 with
  | some l => some l
  | none => (parseAttr sg attr v0).2

/-- **C42**: a merge with a requested location is the second value at this location -/
theorem C42_merge_location (sg : SG) (attr : SGAttr) (v0 v1 loc : Str) (std : Bool) (h : loc ≠ "any".toList) :
    mergeAttr sg attr (some v0) (some v1) (.str loc) std = (formatAttr sg attr v1 (.str loc) std).map some := by
  unfold mergeAttr
  have : ¬ ((LocArg.str loc = .keep) ∨ LocArg.str loc = .str "any".toList) := by
    rintro (h' | h')
    · exact absurd h' (by simp)
    · injection h' with h'; exact h h'
  simp only [this, if_false]

/-- **C42**: a merge that keeps the location writes the root of the second value, at the location of
the second value, or at the one of the first value if the second has none -/
theorem C42_merge_keep (sg : SG) (hreg : sg.regular) (attr : SGAttr) (v0 v1 s : Str) (std : Bool)
    (hv : if std then isText v1 else isRoot attr v1) (l : Str) (hl : mergedLoc sg attr v0 v1 = some l)
    (hp : attr = .name → sg.noPrefix l)
    (h : mergeAttr sg attr (some v0) (some v1) .keep std = .ok (some s)) :
    parseAttr sg attr s =
      (if std then stdRoot attr (parseAttr sg attr v1).1 else (parseAttr sg attr v1).1, some l) := by
  have hloc : isLoc l ∧ lower l = l := by
    have aux : ∀ v, (parseAttr sg attr v).2 = some l → isLoc l ∧ lower l = l := by
      intro v hv
      obtain ⟨h1, h2⟩ := C40_only_valid sg attr v (parseAttr sg attr v).1 l (by rw [← hv])
      by_cases e : sg.valid = []
      · exact h2 e
      · obtain ⟨x, hx, hxl⟩ := h1 e
        rw [hxl]
        exact ⟨stdLoc_isLoc .standardName x (hreg.valid x hx), lower_lower x⟩
    unfold mergedLoc at hl
    cases h1 : (parseAttr sg attr v1).2 with
    | some l' => rw [h1] at hl; injection hl with hl; subst hl; exact aux v1 h1
    | none => rw [h1] at hl; exact aux v0 hl
  have hfm : formatAttr sg attr v1 (.str l) std = .ok s := by
    unfold mergeAttr at h
    simp only [true_or, if_true] at h
    unfold mergedLoc at hl
    cases h1 : (parseAttr sg attr v1).2 with
    | some l' =>
      rw [h1] at hl; injection hl with hl; subst hl
      rw [h1] at h
      simp only at h
      cases hf : formatAttr sg attr v1 (.str l') std with
      | error e => rw [hf] at h; exact absurd h (by simp [Except.map])
      | ok s' => rw [hf] at h; simp only [Except.map, Except.ok.injEq, Option.some.injEq] at h; rw [h]
    | none =>
      rw [h1] at hl h
      simp only at hl h
      rw [hl] at h
      simp only at h
      cases hf : formatAttr sg attr v1 (.str l) std with
      | error e => rw [hf] at h; exact absurd h (by simp [Except.map])
      | ok s' => rw [hf] at h; simp only [Except.map, Except.ok.injEq, Option.some.injEq] at h; rw [h]
  rw [C38_format_parse sg hreg attr v1 l s std hv hloc.1 hp hfm, hloc.2]

example : mergeAttr {} .name (some "temp_t".toList) (some "mytemp".toList) .keep = .ok (some "mytemp_t".toList) ∧
    mergedLoc {} .name "temp_t".toList "mytemp".toList = some "t".toList ∧
    mergeAttr {} .name (some "temp_u".toList) (some "mytemp_t".toList) (.str "v".toList) = .ok (some "mytemp_v".toList) := by
  decide +kernel

/-- **C42**: without any location in both values, the merge that keeps the location is the second
value, in its standard form -/
theorem C42_merge_none (sg : SG) (attr : SGAttr) (v0 v1 : Str) (std : Bool)
    (h : mergedLoc sg attr v0 v1 = none) :
    mergeAttr sg attr (some v0) (some v1) .keep std = .ok (some (if std then stdRoot attr v1 else v1)) := by
  unfold mergedLoc at h
  cases h1 : (parseAttr sg attr v1).2 with
  | some l => rw [h1] at h; exact absurd h (by simp)
  | none =>
    rw [h1] at h
    unfold mergeAttr
    simp only [true_or, if_true]
    rw [h1]; simp only
    simp only at h
    rw [h]; simp only
    rw [formatAttr_keep, h1]
    unfold outRoot
    rw [(parseAttr_none sg attr v1 h1).2]
    rfl

/-- **C88**: with the location `"any"`, the location of one of the values is kept if there is one. -/
theorem C88_located_partial (sg : SG) (attr : SGAttr) (v0 v1 : Str) (std : Bool) (h : mergedLoc sg attr v0 v1 ≠ none) :
    mergeAttr sg attr (some v0) (some v1) (.str "any".toList) std = mergeAttr sg attr (some v0) (some v1) .keep std := by
  unfold mergedLoc at h
  unfold mergeAttr
  simp only [or_true, true_or, if_true]
  cases h1 : (parseAttr sg attr v1).2 with
  | some l => rfl
  | none =>
    rw [h1] at h
    simp only at h ⊢
    cases h0 : (parseAttr sg attr v0).2 with
    | some l => rfl
    | none => exact absurd h0 h

/-- **C88 is violated** by all the values without location: the word `any` is written as the location of the result. -/
theorem C88_unlocated_violated (sg : SG) (hreg : sg.regular) (attr : SGAttr) (v0 v1 s : Str) (std : Bool)
    (hv : if std then isText v1 else isRoot attr v1) (h0 : mergedLoc sg attr v0 v1 = none) (hp : attr = .name → sg.noPrefix "any".toList)
    (h : mergeAttr sg attr (some v0) (some v1) (.str "any".toList) std = .ok (some s)) : (parseAttr sg attr s).2 = some "any".toList := by
  have hfm : formatAttr sg attr v1 (.str "any".toList) std = .ok s := by
    unfold mergedLoc at h0
    unfold mergeAttr at h
    simp only [or_true, if_true] at h
    cases h1 : (parseAttr sg attr v1).2 with
    | some l => rw [h1] at h0; cases h0
    | none =>
      rw [h1] at h0 h
      simp only at h0 h
      rw [h0] at h
      simp only at h
      cases hf : formatAttr sg attr v1 (.str "any".toList) std with
      | error e => rw [hf] at h; exact absurd h (by simp [Except.map])
      | ok s' => rw [hf] at h; simp only [Except.map, Except.ok.injEq, Option.some.injEq] at h; rw [h]
  have hl : isLoc "any".toList := by unfold isLoc; decide
  rw [C38_format_parse sg hreg attr v1 "any".toList s std hv hl hp hfm]
  show some (lower "any".toList) = some "any".toList
  decide

/-- **C88 is violated** by the documented location `"any"`: without any location in both values, it
is written in the result as a location. -/
theorem C88_merge_any_violated :
    mergeAttr {} .name (some "sst".toList) (some "sss".toList) (.str "any".toList) = .ok (some "sss_any".toList) := by
  decide +kernel

theorem mergeAttr_ne_none (sg : SG) (attr : SGAttr) (v0 : Option Str) (v1 : Str) (loc : LocArg) (std : Bool) :
    mergeAttr sg attr v0 (some v1) loc std ≠ .ok none := by
  unfold mergeAttr
  cases v0 with
  | none =>
    simp only
    cases formatAttr sg attr v1 loc std <;> simp [Except.map]
  | some v0 =>
    simp only
    intro h
    generalize (if loc = LocArg.keep ∨ loc = LocArg.str "any".toList then _ else loc : LocArg) = loc' at h
    cases hf : formatAttr sg attr v1 loc' std with
    | error e => rw [hf] at h; simp [Except.map] at h
    | ok s => rw [hf] at h; simp [Except.map] at h

/-! ## Patching a set of attributes -/

theorem formatAttrs_lookup (sg : SG) (loc : LocArg) (std : Bool) (k : Str) :
    ∀ (attrs out : List (Str × AttrVal)), formatAttrs sg loc std attrs = .ok out →
      (lookupS k attrs = none → lookupS k out = none) ∧
      (∀ v, lookupS k attrs = some v → ∃ v', formatItem sg loc std k v = .ok v' ∧ lookupS k out = some v') := by
  intro attrs
  induction attrs with
  | nil =>
    intro out h
    simp only [formatAttrs, Except.ok.injEq] at h
    subst h
    exact ⟨fun _ => rfl, fun v hv => absurd hv (by simp [lookupS])⟩
  | cons p rest ih =>
    intro out h
    obtain ⟨k', v'⟩ := p
    simp only [formatAttrs] at h
    cases hi : formatItem sg loc std k' v' with
    | error e => rw [hi] at h; exact absurd h (by simp [bind, Except.bind])
    | ok w =>
      rw [hi] at h
      cases hr : formatAttrs sg loc std rest with
      | error e => rw [hr] at h; exact absurd h (by simp [bind, Except.bind])
      | ok rest' =>
        rw [hr] at h
        simp only [bind, Except.bind, pure, Except.pure, Except.ok.injEq] at h
        subst h
        obtain ⟨i1, i2⟩ := ih rest' hr
        simp only [lookupS]
        by_cases hk : k' = k
        · subst hk
          simp only [if_true]
          refine ⟨fun h => absurd h (by simp), fun v hv => ?_⟩
          injection hv with hv
          subst hv
          exact ⟨w, hi, rfl⟩
        · have hk2 : ¬ k = k' := fun e => hk e.symm
          simp only [hk2, if_false]
          exact ⟨i1, i2⟩

theorem patchItem_other (sg : SG) (loc : LocArg) (std replace : Bool) (attrs out : List (Str × AttrVal)) (k : Str) (v : AttrVal)
    (h : patchItem sg loc std replace attrs k v = some out) (k' : Str) (hk : k' ≠ k) : lookupS k' out = lookupS k' attrs := by
  have hset : ∀ w, lookupS k' (setS k w attrs) = lookupS k' attrs := by
    intro w
    rw [lookupS_setS]
    simp only [hk, if_false]
  unfold patchItem at h
  split at h
  · injection h with h; rw [h]
  · split at h
    · injection h with h; rw [← h, hset]
    · split at h
      · exact absurd h (by simp)
      · split at h
        · injection h with h; rw [← h, hset]
        · injection h with h; rw [h]
        · exact absurd h (by simp)

theorem fold_other (sg : SG) (loc : LocArg) (std replace : Bool) (k : Str) :
    ∀ (patch attrs out : List (Str × AttrVal)), k ∉ patch.map (·.1) →
      patch.foldlM (fun at_ p => patchItem sg loc std replace at_ p.1 p.2) attrs = some out →
      lookupS k out = lookupS k attrs := by
  intro patch
  induction patch with
  | nil => intro attrs out _ h; simp at h; rw [h]
  | cons p patch ih =>
    intro attrs out hn h
    simp only [List.map_cons, List.mem_cons, not_or] at hn
    rw [List.foldlM_cons] at h
    cases hi : patchItem sg loc std replace attrs p.1 p.2 with
    | none => rw [hi] at h; exact absurd h (by simp)
    | some a1 =>
      rw [hi] at h
      rw [ih a1 out hn.2 h]
      exact patchItem_other _ _ _ _ _ _ _ _ hi k hn.1

/-- the value of a key of the patch is given by its own item -/
theorem fold_item (sg : SG) (loc : LocArg) (std replace : Bool) (k : Str) (v : AttrVal) :
    ∀ (patch attrs out : List (Str × AttrVal)), (patch.map (·.1)).Nodup → (k, v) ∈ patch →
      patch.foldlM (fun at_ p => patchItem sg loc std replace at_ p.1 p.2) attrs = some out →
      ∃ a0 a1, lookupS k a0 = lookupS k attrs ∧ patchItem sg loc std replace a0 k v = some a1 ∧
        lookupS k out = lookupS k a1 := by
  intro patch
  induction patch with
  | nil => intro attrs out _ hm; simp at hm
  | cons p patch ih =>
    intro attrs out hn hm h
    simp only [List.map_cons, List.nodup_cons] at hn
    rw [List.foldlM_cons] at h
    cases hi : patchItem sg loc std replace attrs p.1 p.2 with
    | none => rw [hi] at h; exact absurd h (by simp)
    | some a1 =>
      rw [hi] at h
      rcases List.mem_cons.mp hm with e | e
      · subst e
        exact ⟨attrs, a1, rfl, hi, fold_other _ _ _ _ _ _ _ _ hn.1 h⟩
      · obtain ⟨b0, b1, h1, h2, h3⟩ := ih a1 out hn.2 e h
        have hne : k ≠ p.1 := by
          intro e'
          apply hn.1
          rw [← e']
          exact List.mem_map_of_mem (f := (·.1)) e
        exact ⟨b0, b1, h1.trans (patchItem_other _ _ _ _ _ _ _ _ hi k hne), h2, h3⟩

theorem patchAttrs_split (sg : SG) (attrs patch out : List (Str × AttrVal)) (loc : LocArg) (std replace : Bool)
    (h : patchAttrs sg attrs patch loc std replace = some out) :
    ∃ attrs', formatAttrs sg loc std attrs = .ok attrs' ∧
      patch.foldlM (fun at_ p => patchItem sg loc std replace at_ p.1 p.2) attrs' = some out := by
  unfold patchAttrs at h
  cases hf : formatAttrs sg loc std attrs with
  | error e => rw [hf] at h; exact absurd h (by simp)
  | ok a => rw [hf] at h; exact ⟨a, rfl, h⟩

theorem patchItem_keeps (sg : SG) (loc : LocArg) (std replace : Bool) (attrs out : List (Str × AttrVal)) (k : Str) (v : AttrVal)
    (h : patchItem sg loc std replace attrs k v = some out) : lookupS k out ≠ none := by
  unfold patchItem at h
  split at h
  · next hc =>
    injection h with h
    rw [← h]
    intro e
    rw [e] at hc
    simp at hc
  · split at h
    · injection h with h; rw [← h, lookupS_setS]; simp
    · split at h
      · exact absurd h (by simp)
      · split at h
        · injection h with h; rw [← h, lookupS_setS]; simp
        · next hm => exact absurd hm (mergeAttr_ne_none _ _ _ _ _ _)
        · exact absurd h (by simp)

theorem lookup_or (k : Str) {α : Type} (l : List (Str × α)) : k ∈ l.map (·.1) ∨ k ∉ l.map (·.1) := by
  by_cases h : k ∈ l.map (·.1)
  · exact Or.inl h
  · exact Or.inr h

/-- **C42**: patching never loses an attribute, and adds all those of the patch -/
theorem C42_no_loss (sg : SG) (attrs patch out : List (Str × AttrVal)) (loc : LocArg) (std replace : Bool)
    (hn : (patch.map (·.1)).Nodup) (h : patchAttrs sg attrs patch loc std replace = some out) (k : Str) :
    lookupS k out ≠ none ↔ (lookupS k attrs ≠ none ∨ lookupS k patch ≠ none) := by
  obtain ⟨a', hf, hfold⟩ := patchAttrs_split sg attrs patch out loc std replace h
  obtain ⟨f1, f2⟩ := formatAttrs_lookup sg loc std k attrs a' hf
  rcases lookup_or k patch with hk | hk
  · have hp : lookupS k patch ≠ none := lookupS_some_of_mem k patch hk
    refine ⟨fun _ => Or.inr hp, fun _ => ?_⟩
    cases hv : lookupS k patch with
    | none => exact absurd hv hp
    | some v =>
      obtain ⟨b0, b1, _, h2, h3⟩ := fold_item sg loc std replace k v patch a' out hn (mem_of_lookupS k v patch hv) hfold
      rw [h3]
      exact patchItem_keeps _ _ _ _ _ _ _ _ h2
  · have hp : lookupS k patch = none := lookupS_none_of_notMem k patch hk
    rw [fold_other _ _ _ _ _ _ _ _ hk hfold, hp]
    cases hv : lookupS k attrs with
    | none => rw [f1 hv]; simp
    | some v =>
      obtain ⟨v', _, h2⟩ := f2 v hv
      rw [h2]; simp

/-- **C42**: without `replace`, or if the patch does not mention it, an existing attribute is kept:
unchanged if it has no location, with its own root put at the requested location otherwise -/
theorem C42_existing_kept (sg : SG) (attrs patch out : List (Str × AttrVal)) (loc : LocArg) (std replace : Bool)
    (hn : (patch.map (·.1)).Nodup) (h : patchAttrs sg attrs patch loc std replace = some out) (k : Str) (v : AttrVal)
    (hk : lookupS k attrs = some v) (hr : replace = false ∨ k ∉ patch.map (·.1)) :
    ((k ≠ "standard_name".toList ∧ k ≠ "long_name".toList) → lookupS k out = some v) ∧
    (∀ s, v = .str s → k = "standard_name".toList →
      ∃ s', formatAttr sg .standardName s loc std = .ok s' ∧ lookupS k out = some (.str s')) ∧
    (∀ s, v = .str s → k = "long_name".toList →
      ∃ s', formatAttr sg .longName s loc std = .ok s' ∧ lookupS k out = some (.str s')) := by
  obtain ⟨a', hf, hfold⟩ := patchAttrs_split sg attrs patch out loc std replace h
  obtain ⟨_, f2⟩ := formatAttrs_lookup sg loc std k attrs a' hf
  obtain ⟨v', hi, hv'⟩ := f2 v hk
  have hout : lookupS k out = some v' := by
    rcases lookup_or k patch with hm | hm
    · rcases hr with hr | hr
      · obtain ⟨w, hw⟩ : ∃ w, lookupS k patch = some w := by
          cases e : lookupS k patch with
          | none => exact absurd e (lookupS_some_of_mem k patch hm)
          | some w => exact ⟨w, rfl⟩
        obtain ⟨b0, b1, h1, h2, h3⟩ := fold_item sg loc std replace k w patch a' out hn (mem_of_lookupS k w patch hw) hfold
        unfold patchItem at h2
        rw [h1, hv', hr] at h2
        simp only [Option.isSome_some, Bool.not_false, Bool.and_self, if_true, Option.some.injEq] at h2
        rw [h3, ← h2, h1, hv']
      · exact absurd hm hr
    · rw [fold_other _ _ _ _ _ _ _ _ hm hfold, hv']
  have d1 : ("standard_name".toList : Str) ≠ "name".toList := by decide
  have d2 : ("long_name".toList : Str) ≠ "name".toList := by decide
  have d3 : ("long_name".toList : Str) ≠ "standard_name".toList := by decide
  have key : ∀ (a : SGAttr) (s : Str), a ≠ .name → sgAttrOf k = some a → v = .str s →
      ∃ s', formatAttr sg a s loc std = .ok s' ∧ lookupS k out = some (.str s') := by
    intro a s ha hs hvs
    subst hvs
    have hi' : (formatAttr sg a s loc std).map AttrVal.str = .ok v' := by
      rw [← hi]
      unfold formatItem
      rw [hs]
      cases a with
      | name => exact absurd rfl ha
      | standardName => rfl
      | longName => rfl
    cases hfa : formatAttr sg a s loc std with
    | error e => rw [hfa] at hi'; exact absurd hi' (by simp [Except.map])
    | ok s' =>
      rw [hfa] at hi'
      simp only [Except.map, Except.ok.injEq] at hi'
      exact ⟨s', rfl, by rw [hout, ← hi']⟩
  refine ⟨?_, ?_, ?_⟩
  · rintro ⟨h1, h2⟩
    rw [hout]
    have hs : sgAttrOf k = some .name ∨ sgAttrOf k = none := by
      unfold sgAttrOf
      by_cases e : k = "name".toList
      · rw [if_pos e]; exact Or.inl rfl
      · rw [if_neg e, if_neg h1, if_neg h2]; exact Or.inr rfl
    have : formatItem sg loc std k v = .ok v := by
      unfold formatItem
      rcases hs with hs | hs <;> rw [hs]
    rw [this] at hi
    injection hi with hi
    rw [hi]
  · intro s hvs hks
    exact key .standardName s (by simp) (by unfold sgAttrOf; rw [hks, if_neg d1, if_pos rfl]) hvs
  · intro s hvs hks
    exact key .longName s (by simp) (by unfold sgAttrOf; rw [hks, if_neg d2, if_neg d3, if_pos rfl]) hvs

/-- **C42**: with `replace`, the patch wins for the attributes without location -/
theorem C42_replace (sg : SG) (attrs patch out : List (Str × AttrVal)) (loc : LocArg) (std : Bool)
    (hn : (patch.map (·.1)).Nodup) (h : patchAttrs sg attrs patch loc std true = some out) (k : Str) (v : AttrVal)
    (hk : lookupS k patch = some v) (hs : sgAttrOf k = none) : lookupS k out = some v := by
  obtain ⟨a', _, hfold⟩ := patchAttrs_split sg attrs patch out loc std true h
  obtain ⟨b0, b1, h1, h2, h3⟩ := fold_item sg loc std true k v patch a' out hn (mem_of_lookupS k v patch hk) hfold
  unfold patchItem at h2
  rw [hs] at h2
  simp only [Bool.not_true, Bool.and_false, Bool.false_eq_true, if_false, Option.some.injEq] at h2
  rw [h3, ← h2, lookupS_setS]
  simp

/-- **C42**: with `replace`, the located attributes of the patch win, at the location that results
from the merge with the current value (which is itself first put at the requested location) -/
theorem C42_replace_located (sg : SG) (attrs patch out : List (Str × AttrVal)) (loc : LocArg) (std : Bool)
    (hn : (patch.map (·.1)).Nodup) (h : patchAttrs sg attrs patch loc std true = some out) (k p c : Str) (a : SGAttr)
    (hk : lookupS k patch = some (.str p)) (hs : sgAttrOf k = some a) (ha : a ≠ .name) (hc : lookupS k attrs = some (.str c)) :
    ∃ c' s, formatAttr sg a c loc std = .ok c' ∧ mergeAttr sg a (some c') (some p) loc std = .ok (some s) ∧
      lookupS k out = some (.str s) := by
  obtain ⟨a', hf, hfold⟩ := patchAttrs_split sg attrs patch out loc std true h
  obtain ⟨_, f2⟩ := formatAttrs_lookup sg loc std k attrs a' hf
  obtain ⟨v', hi, hv'⟩ := f2 _ hc
  have hi' : (formatAttr sg a c loc std).map AttrVal.str = .ok v' := by
    rw [← hi]
    unfold formatItem
    rw [hs]
    cases a with
    | name => exact absurd rfl ha
    | standardName => rfl
    | longName => rfl
  obtain ⟨b0, b1, h1, h2, h3⟩ := fold_item sg loc std true k _ patch a' out hn (mem_of_lookupS k _ patch hk) hfold
  cases hfa : formatAttr sg a c loc std with
  | error e => rw [hfa] at hi'; exact absurd hi' (by simp [Except.map])
  | ok c' =>
    rw [hfa] at hi'
    simp only [Except.map, Except.ok.injEq] at hi'
    subst hi'
    unfold patchItem at h2
    rw [hs, h1, hv'] at h2
    simp only [Bool.not_true, Bool.and_false, Bool.false_eq_true, if_false, patchChoice] at h2
    cases hm : mergeAttr sg a (some c') (some p) loc std with
    | error e => rw [hm] at h2; exact absurd h2 (by simp)
    | ok o =>
      cases o with
      | none => exact absurd hm (mergeAttr_ne_none _ _ _ _ _ _)
      | some s =>
        rw [hm] at h2
        simp only [Option.some.injEq] at h2
        refine ⟨c', s, rfl, hm, ?_⟩
        rw [h3, ← h2, lookupS_setS]
        simp

/-- **C42**: with `replace` and a list of acceptable values, the current value is kept if its root is
one of them, and the first of the list is used otherwise -/
theorem C42_replace_list (sg : SG) (attrs patch out : List (Str × AttrVal)) (loc : LocArg) (std : Bool)
    (hn : (patch.map (·.1)).Nodup) (h : patchAttrs sg attrs patch loc std true = some out) (k p c : Str) (ps : List Str) (a : SGAttr)
    (hk : lookupS k patch = some (.list (p :: ps))) (hs : sgAttrOf k = some a) (ha : a ≠ .name)
    (hc : lookupS k attrs = some (.str c)) :
    ∃ c' s, formatAttr sg a c loc std = .ok c' ∧ lookupS k out = some (.str s) ∧
      ((∃ x ∈ p :: ps, lower (parseAttr sg a (lower c')).1 = lower x) →
        mergeAttr sg a (some c') (some c') loc std = .ok (some s)) ∧
      ((¬ ∃ x ∈ p :: ps, lower (parseAttr sg a (lower c')).1 = lower x) →
        mergeAttr sg a (some c') (some p) loc std = .ok (some s)) := by
  obtain ⟨a', hf, hfold⟩ := patchAttrs_split sg attrs patch out loc std true h
  obtain ⟨_, f2⟩ := formatAttrs_lookup sg loc std k attrs a' hf
  obtain ⟨v', hi, hv'⟩ := f2 _ hc
  have hi' : (formatAttr sg a c loc std).map AttrVal.str = .ok v' := by
    rw [← hi]
    unfold formatItem
    rw [hs]
    cases a with
    | name => exact absurd rfl ha
    | standardName => rfl
    | longName => rfl
  obtain ⟨b0, b1, h1, h2, h3⟩ := fold_item sg loc std true k _ patch a' out hn (mem_of_lookupS k _ patch hk) hfold
  cases hfa : formatAttr sg a c loc std with
  | error e => rw [hfa] at hi'; exact absurd hi' (by simp [Except.map])
  | ok c' =>
    rw [hfa] at hi'
    simp only [Except.map, Except.ok.injEq] at hi'
    subst hi'
    unfold patchItem at h2
    rw [hs, h1, hv'] at h2
    simp only [Bool.not_true, Bool.and_false, Bool.false_eq_true, if_false, patchChoice] at h2
    have hany : ((p :: ps).any (fun x => matchAttrAny sg a c' x) = true) ↔
        ∃ x ∈ p :: ps, lower (parseAttr sg a (lower c')).1 = lower x := by
      rw [List.any_eq_true]
      simp only [matchAttrAny, beq_iff_eq]
    by_cases hx : ∃ x ∈ p :: ps, lower (parseAttr sg a (lower c')).1 = lower x
    · rw [if_pos (hany.mpr hx)] at h2
      simp only at h2
      cases hm : mergeAttr sg a (some c') (some c') loc std with
      | error e => rw [hm] at h2; exact absurd h2 (by simp)
      | ok o =>
        cases o with
        | none => exact absurd hm (mergeAttr_ne_none _ _ _ _ _ _)
        | some s =>
          rw [hm] at h2
          simp only [Option.some.injEq] at h2
          refine ⟨c', s, rfl, ?_, fun _ => hm, fun hn => absurd hx hn⟩
          rw [h3, ← h2, lookupS_setS]
          simp
    · rw [if_neg (fun e => hx (hany.mp e))] at h2
      simp only at h2
      cases hm : mergeAttr sg a (some c') (some p) loc std with
      | error e => rw [hm] at h2; exact absurd h2 (by simp)
      | ok o =>
        cases o with
        | none => exact absurd hm (mergeAttr_ne_none _ _ _ _ _ _)
        | some s =>
          rw [hm] at h2
          simp only [Option.some.injEq] at h2
          refine ⟨c', s, rfl, ?_, fun hn => absurd hn hx, fun _ => hm⟩
          rw [h3, ← h2, lookupS_setS]
          simp

def exAttrs : List (Str × AttrVal) := [("units".toList, .str "degC".toList), ("standard_name".toList, .str "Sea_Temp_at_t_location".toList)]
def exPatch : List (Str × AttrVal) := [("units".toList, .str "K".toList), ("long_name".toList, .str "temp".toList),
  ("standard_name".toList, .list ["temp".toList, "sea_temp".toList])]

example : (exPatch.map (·.1)).Nodup ∧
    patchAttrs {} exAttrs exPatch (.str "u".toList) true false =
      some [("units".toList, .str "degC".toList), ("standard_name".toList, .str "sea_temp_at_u_location".toList),
        ("long_name".toList, .str "Temp at U location".toList)] ∧
    patchAttrs {} exAttrs exPatch .keep true true =
      some [("units".toList, .str "K".toList), ("standard_name".toList, .str "sea_temp_at_t_location".toList),
        ("long_name".toList, .str "Temp".toList)] := by decide +kernel

end Xoa
