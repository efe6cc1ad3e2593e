import Verif.CfgMany
import Verif.CfgLoadProps

/-!
# C168: `__many__` specifications
-/

namespace Xoa
variable {V S : Type}

/-! ## Specifications -/

/-- the specification for an entry `k` of a section: its own one, else the one of `__many__` -/
def specFor (k : Str) (l : List (Str × CT S)) : Option (CT S) :=
  if k = manyKey then none
  else match lookupS k l with
    | some t => some t
    | none => lookupS manyKey l

/-- the specification for the path of an option or of a section -/
def specAt : List Str → CT S → Option (CT S)
  | [], t => some t
  | k :: q, .sec l => (specFor k l).bind (specAt q)
  | _ :: _, .val _ => none

/-- the parts of a path whose specifications are those of a `__many__` -/
def manyParts : List Str → CT S → List (List Str)
  | [], _ => []
  | _ :: _, .val _ => []
  | k :: q, .sec l => (if lookupS k l = none then [[k]] else []) ++ (match specFor k l with
      | some t => (manyParts q t).map (k :: ·)
      | none => [])

/-! ## the specifications that are used -/

theorem mem_extraKeys (keys : List Str) (b : Bool) (c : List (Str × CT V)) (k : Str) :
    k ∈ extraKeys keys b c ↔ k ∉ keys ∧ hasKind b (lookupS k c) = true := by
  unfold extraKeys
  rw [List.mem_filter, List.mem_dedup]
  constructor
  · rintro ⟨-, h⟩
    simpa using h
  · rintro ⟨h1, h2⟩
    refine ⟨?_, by simpa using ⟨h1, h2⟩⟩
    by_contra hn
    rw [lookupS_none_of_notMem k c hn] at h2
    cases h2

theorem extraKeys_nodup (keys : List Str) (b : Bool) (c : List (Str × CT V)) : (extraKeys keys b c).Nodup :=
  (List.nodup_dedup _).filter _

theorem lookupS_mapKeys {α : Type} (f : Str → α) (k : Str) (ks : List Str) : lookupS k (ks.map (fun k' => (k', f k'))) = if k ∈ ks then some (f k) else none := by
  induction ks with
  | nil => rfl
  | cons a ks ih =>
    rw [List.map_cons, lookupS]
    by_cases h : k = a
    · subst h; simp
    · rw [if_neg h, ih]; simp [h]

theorem lookupS_append2 {β : Type} (k : Str) (l l' : List (Str × β)) : lookupS k (l ++ l') = (lookupS k l).or (lookupS k l') := by
  induction l with
  | nil => rfl
  | cons p l ih =>
    rw [List.cons_append, lookupS, lookupS]
    split
    · rfl
    · exact ih

theorem lookup_expandL (keys : List Str) (l : List (Str × CT S)) (c : List (Str × CT V)) (hn : (l.map Prod.fst).Nodup) (hk : ∀ k ∈ l.map Prod.fst, k ∈ keys) (k : Str) :
    lookupS k (expandL keys l c) = if k = manyKey then none else match lookupS k l with
      | some t => some (expandT t (lookupS k c))
      | none => match lookupS manyKey l with
        | some t => if k ∈ extraKeys keys t.isSecT c then some (expandT t (lookupS k c)) else none
        | none => none := by
  induction l with
  | nil => simp [expandL, lookupS]
  | cons p rest ih =>
    obtain ⟨a, t⟩ := p
    simp only [List.map_cons, List.nodup_cons] at hn
    have ih := ih hn.2 (fun x hx => hk x (by simp [hx]))
    have hak : a ∈ keys := hk a (by simp)
    rw [expandL, lookupS_append2, ih]
    by_cases ha : a = manyKey
    · have hrest : lookupS manyKey rest = none := lookupS_none_of_notMem _ _ (ha ▸ hn.1)
      rw [if_pos ha, lookupS_mapKeys, hrest]
      by_cases hkm : k = manyKey
      · have : k ∉ extraKeys keys t.isSecT c := fun h => ((mem_extraKeys _ _ _ _).1 h).1 (by rw [hkm, ← ha]; exact hak)
        rw [if_neg this, if_pos hkm, if_pos hkm]; rfl
      · have hka : k ≠ a := fun h => hkm (h.trans ha)
        rw [if_neg hkm, if_neg hkm]
        have e1 : lookupS k ((a, t) :: rest) = lookupS k rest := by simp [lookupS, hka]
        have e2 : lookupS manyKey ((a, t) :: rest) = some t := by simp [lookupS, ha]
        rw [e1, e2]
        cases hr : lookupS k rest with
        | some u =>
          have : k ∉ extraKeys keys t.isSecT c := fun h => ((mem_extraKeys _ _ _ _).1 h).1 (hk k (by
            simp only [List.map_cons, List.mem_cons]
            exact .inr (List.mem_map.2 ⟨(k, u), mem_of_lookupS _ _ _ hr, rfl⟩)))
          rw [if_neg this]; rfl
        | none =>
          dsimp only
          split <;> rfl
    · rw [if_neg ha]
      have e2 : lookupS manyKey ((a, t) :: rest) = lookupS manyKey rest := by simp [lookupS, Ne.symm ha]
      rw [e2]
      by_cases hka : k = a
      · subst hka
        rw [if_neg ha, if_neg ha]
        simp [lookupS]
      · have e1 : lookupS k ((a, t) :: rest) = lookupS k rest := by simp [lookupS, hka]
        have e0 : lookupS k [(a, expandT t (lookupS a c))] = none := by simp [lookupS, hka]
        rw [e1, e0]; rfl

theorem expandL_keys (keys : List Str) (l : List (Str × CT S)) (c : List (Str × CT V)) (hn : (l.map Prod.fst).Nodup) (hk : ∀ k ∈ l.map Prod.fst, k ∈ keys) :
    ((expandL keys l c).map Prod.fst).Nodup ∧
      ∀ k ∈ (expandL keys l c).map Prod.fst, (k ∈ l.map Prod.fst ∧ k ≠ manyKey) ∨ (k ∉ keys ∧ manyKey ∈ l.map Prod.fst) := by
  induction l with
  | nil => simp [expandL]
  | cons p rest ih =>
    obtain ⟨a, t⟩ := p
    simp only [List.map_cons, List.nodup_cons] at hn
    obtain ⟨i1, i2⟩ := ih hn.2 (fun x hx => hk x (by simp [hx]))
    have hak : a ∈ keys := hk a (by simp)
    rw [expandL, List.map_append]
    by_cases ha : a = manyKey
    · rw [if_pos ha, List.map_map]
      have hm : (Prod.fst ∘ fun k' => (k', expandT t (lookupS k' c))) = (id : Str → Str) := rfl
      rw [hm, List.map_id]
      constructor
      · rw [List.nodup_append]
        refine ⟨extraKeys_nodup _ _ _, i1, ?_⟩
        rintro x hx y hy rfl
        have h1 := ((mem_extraKeys _ _ _ _).1 hx).1
        rcases i2 x hy with h | h
        · exact h1 (hk x (by simp only [List.map_cons, List.mem_cons]; exact .inr h.1))
        · exact hn.1 (ha ▸ h.2)
      · intro k hkm
        rcases List.mem_append.1 hkm with h | h
        · exact .inr ⟨((mem_extraKeys _ _ _ _).1 h).1, by simp [ha]⟩
        · rcases i2 k h with h | h
          · exact .inl ⟨by simp only [List.map_cons, List.mem_cons]; exact .inr h.1, h.2⟩
          · exact .inr ⟨h.1, by simp [ha]⟩
    · rw [if_neg ha]
      constructor
      · simp only [List.map_cons, List.map_nil, List.singleton_append, List.nodup_cons]
        refine ⟨?_, i1⟩
        intro h
        rcases i2 a h with h | h
        · exact hn.1 h.1
        · exact h.1 hak
      · intro k hkm
        rcases List.mem_append.1 hkm with h | h
        · simp only [List.map_cons, List.map_nil, List.mem_singleton] at h
          subst h
          exact .inl ⟨by simp, ha⟩
        · rcases i2 k h with h | h
          · exact .inl ⟨by simp only [List.map_cons, List.mem_cons]; exact .inr h.1, h.2⟩
          · exact .inr ⟨h.1, by simp only [List.map_cons, List.mem_cons]; exact .inr h.2⟩

/-- the configuration at a path has the kind of its specification, where the specification is the one of a `__many__` -/
def MeetsMany (q : List Str) (t : CT S) (c : Option (CT V)) : Prop :=
  ∀ p ∈ manyParts q t, ∃ u, specAt p t = some u ∧ hasKind u.isSecT (c.bind (getT p)) = true

theorem lookup_items (k : Str) (q : List Str) (c : Option (CT V)) : (lookupS k (itemsOf c)).bind (getT q) = c.bind (getT (k :: q)) := by
  cases c with
  | none => simp [itemsOf, lookupS]
  | some t => cases t with
    | val v => simp [itemsOf, lookupS, getT]
    | sec l => rfl

theorem meets_cons (k : Str) (q : List Str) (l : List (Str × CT S)) (t : CT S) (c : Option (CT V)) (h : specFor k l = some t) :
    MeetsMany (k :: q) (.sec l) c ↔ (lookupS k l = none → hasKind t.isSecT (lookupS k (itemsOf c)) = true) ∧ MeetsMany q t (lookupS k (itemsOf c)) := by
  have e1 : specAt [k] (.sec l) = some t := by simp [specAt, h]
  have e2 : c.bind (getT [k]) = lookupS k (itemsOf c) := by
    rw [← lookup_items]
    cases lookupS k (itemsOf c) <;> rfl
  have e3 : ∀ p, specAt (k :: p) (.sec l) = specAt p t := by intro p; simp [specAt, h]
  have e4 : manyParts (k :: q) (.sec l) = (if lookupS k l = none then [[k]] else []) ++ (manyParts q t).map (k :: ·) := by
    rw [manyParts, h]
  unfold MeetsMany
  rw [e4]
  simp only [List.mem_append, List.mem_map]
  constructor
  · intro H
    constructor
    · intro hl
      obtain ⟨u, hu, hk⟩ := H [k] (.inl (by rw [if_pos hl]; simp))
      rw [e1] at hu
      injection hu with hu
      rw [e2] at hk
      exact hu ▸ hk
    · intro p hp
      obtain ⟨u, hu, hk⟩ := H (k :: p) (.inr ⟨p, hp, rfl⟩)
      exact ⟨u, by rw [← e3]; exact hu, by rw [lookup_items]; exact hk⟩
  · rintro ⟨H1, H2⟩ p hp
    rcases hp with hp | ⟨p', hp, rfl⟩
    · by_cases hl : lookupS k l = none
      · rw [if_pos hl] at hp
        rw [List.mem_singleton.1 hp]
        exact ⟨t, e1, by rw [e2]; exact H1 hl⟩
      · rw [if_neg hl] at hp; cases hp
    · obtain ⟨u, hu, hk⟩ := H2 p' hp
      exact ⟨u, by rw [e3]; exact hu, by rw [← lookup_items]; exact hk⟩

theorem specFor_none (k : Str) (l : List (Str × CT S)) (h : specFor k l = none) : k = manyKey ∨ (lookupS k l = none ∧ lookupS manyKey l = none) := by
  unfold specFor at h
  split at h
  · rename_i e; exact .inl e
  · cases hl : lookupS k l with
    | some t => rw [hl] at h; cases h
    | none => rw [hl] at h; exact .inr ⟨rfl, h⟩

theorem lookup_expand (l : List (Str × CT S)) (hn : (l.map Prod.fst).Nodup) (c : List (Str × CT V)) (k : Str) (u : CT S) :
    lookupS k (expandL (l.map Prod.fst) l c) = some u ↔
      ∃ t, specFor k l = some t ∧ (lookupS k l = none → hasKind t.isSecT (lookupS k c) = true) ∧ u = expandT t (lookupS k c) := by
  rw [lookup_expandL _ l c hn (fun _ h => h) k]
  unfold specFor
  by_cases hk : k = manyKey
  · simp [hk]
  · rw [if_neg hk, if_neg hk]
    cases hl : lookupS k l with
    | some t =>
      simp only [Option.some.injEq, reduceCtorEq, false_implies, true_and]
      exact ⟨fun h => ⟨t, rfl, h.symm⟩, fun ⟨t', e1, e2⟩ => by subst e1; exact e2.symm⟩
    | none =>
      cases hm : lookupS manyKey l with
      | none => simp
      | some t =>
        have hnm : k ∉ l.map Prod.fst := fun h => lookupS_some_of_mem k l h hl
        have e : k ∈ extraKeys (l.map Prod.fst) t.isSecT c ↔ hasKind t.isSecT (lookupS k c) = true := by rw [mem_extraKeys]; exact ⟨fun h => h.2, fun h => ⟨hnm, h⟩⟩
        simp only [e]
        by_cases hh : hasKind t.isSecT (lookupS k c) = true
        · rw [if_pos hh]
          simp only [Option.some.injEq, true_implies]
          exact ⟨fun h => ⟨t, rfl, hh, h.symm⟩, fun ⟨t', e1, _, e2⟩ => by subst e1; exact e2.symm⟩
        · rw [if_neg hh]
          simp only [Option.some.injEq, true_implies, reduceCtorEq, false_iff]
          rintro ⟨t', e1, e2, -⟩
          subst e1
          exact hh e2

/-- what the expansion has at a path -/
theorem getT_expand (q : List Str) (t : CT S) (hw : WfTree t) (c : Option (CT V)) (u : CT S) :
    getT q (expandT t c) = some u ↔ ∃ t', specAt q t = some t' ∧ MeetsMany q t c ∧ u = expandT t' (c.bind (getT q)) := by
  induction q generalizing t c with
  | nil =>
    have e : c.bind (getT []) = c := by cases c <;> rfl
    rw [e]
    simp only [getT, specAt, Option.some.injEq]
    constructor
    · rintro rfl
      exact ⟨t, rfl, by intro p hp; simp [manyParts] at hp, rfl⟩
    · rintro ⟨t', rfl, -, rfl⟩; rfl
  | cons k q ih =>
    cases t with
    | val s =>
      simp only [expandT, getT, specAt, reduceCtorEq, false_and, exists_false]
    | sec l =>
      rw [expandT, getT]
      constructor
      · intro h
        cases hl : lookupS k (expandL (l.map Prod.fst) l (itemsOf c)) with
        | none => rw [hl] at h; cases h
        | some w =>
          rw [hl] at h
          obtain ⟨t, e1, e2, rfl⟩ := (lookup_expand l (hw [] l rfl) (itemsOf c) k w).1 hl
          have hwt : WfTree t := by
            unfold specFor at e1
            split at e1
            · cases e1
            · cases hlk : lookupS k l with
              | some t2 => rw [hlk] at e1; injection e1 with e1; exact e1 ▸ hw.sub k t2 hlk
              | none => rw [hlk] at e1; exact hw.sub _ t e1
          obtain ⟨t', g1, g2, g3⟩ := (ih t hwt (lookupS k (itemsOf c))).1 h
          refine ⟨t', by simp [specAt, e1, g1], (meets_cons k q l t c e1).2 ⟨e2, g2⟩, ?_⟩
          rw [g3, lookup_items]
      · rintro ⟨t', g1, g2, g3⟩
        simp only [specAt] at g1
        cases e1 : specFor k l with
        | none => rw [e1] at g1; cases g1
        | some t =>
          rw [e1] at g1
          obtain ⟨m1, m2⟩ := (meets_cons k q l t c e1).1 g2
          have hwt : WfTree t := by
            unfold specFor at e1
            split at e1
            · cases e1
            · cases hlk : lookupS k l with
              | some t2 => rw [hlk] at e1; injection e1 with e1; exact e1 ▸ hw.sub k t2 hlk
              | none => rw [hlk] at e1; exact hw.sub _ t e1
          rw [(lookup_expand l (hw [] l rfl) (itemsOf c) k _).2 ⟨t, e1, m1, rfl⟩]
          exact (ih t hwt (lookupS k (itemsOf c))).2 ⟨t', g1, m2, by rw [lookup_items]; exact g3⟩

theorem specAt_wf (q : List Str) (t t' : CT S) (hw : WfTree t) (h : specAt q t = some t') : WfTree t' := by
  induction q generalizing t with
  | nil => simp only [specAt, Option.some.injEq] at h; exact h ▸ hw
  | cons k q ih =>
    cases t with
    | val s => simp [specAt] at h
    | sec l =>
      simp only [specAt] at h
      cases e1 : specFor k l with
      | none => rw [e1] at h; cases h
      | some t =>
        rw [e1] at h
        refine ih t ?_ h
        unfold specFor at e1
        split at e1
        · cases e1
        · cases hlk : lookupS k l with
          | some t2 => rw [hlk] at e1; injection e1 with e1; exact e1 ▸ hw.sub k t2 hlk
          | none => rw [hlk] at e1; exact hw.sub _ t e1

theorem expandT_wf (t : CT S) (hw : WfTree t) (c : Option (CT V)) : WfTree (expandT t c) := by
  intro r l h
  obtain ⟨t', h1, -, h3⟩ := (getT_expand r t hw c _).1 h
  have hw' := specAt_wf r t t' hw h1
  cases t' with
  | val s => rw [expandT] at h3; cases h3
  | sec l' =>
    rw [expandT] at h3
    injection h3 with h3
    rw [h3]
    exact (expandL_keys _ l' _ (hw' [] l' rfl) (fun _ h => h)).1

theorem expandSpecs_eq (specs : List (Str × CT S)) (c : List (Str × CT V)) : CT.sec (expandSpecs specs c) = expandT (.sec specs) (some (.sec c)) := by
  rw [expandT]; rfl

theorem leaf_expand (specs : List (Str × CT S)) (hw : WfTree (.sec specs)) (c : List (Str × CT V)) (r : List Str) (s : S) :
    leafAt r (.sec (expandSpecs specs c)) = some s ↔ specAt r (.sec specs) = some (.val s) ∧ MeetsMany r (.sec specs) (some (.sec c)) := by
  rw [expandSpecs_eq, leafAt_eq_some, getT_expand r _ hw]
  constructor
  · rintro ⟨t', h1, h2, h3⟩
    cases t' with
    | val s' => rw [expandT] at h3; injection h3 with h3; subst h3; exact ⟨h1, h2⟩
    | sec l => rw [expandT] at h3; cases h3
  · rintro ⟨h1, h2⟩
    exact ⟨_, h1, h2, by rw [expandT]⟩

/-! ## shapes -/

/-- a section of the configuration where its specification is an option, or the opposite -/
def Misfit (t : CT S) (c : Option (CT V)) : Prop :=
  ∃ q u, specAt q t = some u ∧ MeetsMany q t c ∧ hasKind (!u.isSecT) (c.bind (getT q)) = true

theorem misfitL_iff (keys : List Str) (l : List (Str × CT S)) (c : List (Str × CT V)) :
    misfitL keys l c = true ↔ ∃ p ∈ l, if p.1 = manyKey then ∃ k ∈ extraKeys keys p.2.isSecT c, misfitT p.2 (lookupS k c) = true
      else misfitT p.2 (lookupS p.1 c) = true := by
  induction l with
  | nil => simp [misfitL]
  | cons p rest ih =>
    obtain ⟨a, t⟩ := p
    rw [misfitL, Bool.or_eq_true, ih]
    simp only [List.mem_cons, exists_eq_or_imp]
    refine or_congr ?_ Iff.rfl
    by_cases ha : a = manyKey
    · rw [if_pos ha, if_pos ha, List.any_eq_true]
    · rw [if_neg ha, if_neg ha]

theorem specFor_wf (k : Str) (l : List (Str × CT S)) (t : CT S) (hw : WfTree (.sec l)) (h : specFor k l = some t) : WfTree t :=
  specAt_wf [k] (.sec l) t hw (by simp [specAt, h])

theorem sizeOf_lookup (k : Str) (l : List (Str × CT S)) (t : CT S) (h : lookupS k l = some t) : sizeOf t < sizeOf (CT.sec l) := by
  have hm := List.sizeOf_lt_of_mem (mem_of_lookupS _ _ _ h)
  simp only [Prod.mk.sizeOf_spec, CT.sec.sizeOf_spec] at hm ⊢
  omega

theorem specFor_size (k : Str) (l : List (Str × CT S)) (t : CT S) (h : specFor k l = some t) : sizeOf t < sizeOf (CT.sec l) := by
  unfold specFor at h
  split at h
  · cases h
  · cases hlk : lookupS k l with
    | some t2 => rw [hlk] at h; injection h with h; exact h ▸ sizeOf_lookup k l t2 hlk
    | none => rw [hlk] at h; exact sizeOf_lookup _ l t h

theorem misfitL_specFor (l : List (Str × CT S)) (hn : (l.map Prod.fst).Nodup) (c : List (Str × CT V)) :
    misfitL (l.map Prod.fst) l c = true ↔ ∃ k t, specFor k l = some t ∧ (lookupS k l = none → hasKind t.isSecT (lookupS k c) = true) ∧
      misfitT t (lookupS k c) = true := by
  rw [misfitL_iff]
  constructor
  · rintro ⟨⟨a, t⟩, hm, h⟩
    have hl := lookupS_of_mem_nodup a t l hn hm
    dsimp only at h
    by_cases ha : a = manyKey
    · rw [if_pos ha] at h
      obtain ⟨k, hk, hmis⟩ := h
      obtain ⟨h1, h2⟩ := (mem_extraKeys _ _ _ _).1 hk
      have hne : k ≠ manyKey := by
        rintro rfl
        exact h1 (List.mem_map.2 ⟨(a, t), hm, ha⟩)
      have hlk : lookupS k l = none := lookupS_none_of_notMem k l h1
      exact ⟨k, t, by unfold specFor; rw [if_neg hne, hlk, ← ha]; exact hl, fun _ => h2, hmis⟩
    · rw [if_neg ha] at h
      refine ⟨a, t, by unfold specFor; rw [if_neg ha, hl], ?_, h⟩
      intro h0; rw [hl] at h0; cases h0
  · rintro ⟨k, t, h1, h2, h3⟩
    unfold specFor at h1
    split at h1
    · cases h1
    · rename_i hne
      cases hlk : lookupS k l with
      | some t2 =>
        rw [hlk] at h1
        injection h1 with h1
        subst h1
        exact ⟨(k, t2), mem_of_lookupS _ _ _ hlk, by dsimp only; rw [if_neg hne]; exact h3⟩
      | none =>
        rw [hlk] at h1
        refine ⟨(manyKey, t), mem_of_lookupS _ _ _ h1, ?_⟩
        dsimp only
        rw [if_pos rfl]
        exact ⟨k, (mem_extraKeys _ _ _ _).2 ⟨fun hm => lookupS_some_of_mem k l hm hlk, h2 hlk⟩, h3⟩

theorem misfitT_iff (t : CT S) (hw : WfTree t) (c : Option (CT V)) : misfitT t c = true ↔ Misfit t c := by
  have e0 : ∀ c : Option (CT V), c.bind (getT []) = c := by intro c; cases c <;> rfl
  cases ht : t with
  | val s =>
    rw [misfitT]
    constructor
    · intro h
      exact ⟨[], _, rfl, by intro p hp; simp [manyParts] at hp, by rw [e0]; exact h⟩
    · rintro ⟨q, u, h1, h2, h3⟩
      cases q with
      | nil =>
        simp only [specAt, Option.some.injEq] at h1
        subst h1
        rw [e0] at h3
        exact h3
      | cons k q => simp [specAt] at h1
  | sec l =>
    subst ht
    rw [misfitT, Bool.or_eq_true, misfitL_specFor l (hw [] l rfl)]
    constructor
    · rintro (h | ⟨k, t, h1, h2, h3⟩)
      · exact ⟨[], _, rfl, by intro p hp; simp [manyParts] at hp, by rw [e0]; exact h⟩
      · have hsz := specFor_size k l t h1
        obtain ⟨q, u, g1, g2, g3⟩ := (misfitT_iff t (specFor_wf k l t hw h1) _).1 h3
        refine ⟨k :: q, u, by simp [specAt, h1, g1], (meets_cons k q l t c h1).2 ⟨h2, g2⟩, ?_⟩
        rw [← lookup_items]; exact g3
    · rintro ⟨q, u, h1, h2, h3⟩
      cases q with
      | nil =>
        simp only [specAt, Option.some.injEq] at h1
        subst h1
        rw [e0] at h3
        exact .inl h3
      | cons k q =>
        simp only [specAt] at h1
        cases e1 : specFor k l with
        | none => rw [e1] at h1; cases h1
        | some t =>
          rw [e1] at h1
          have hsz := specFor_size k l t e1
          obtain ⟨m1, m2⟩ := (meets_cons k q l t c e1).1 h2
          exact .inr ⟨k, t, e1, m1, (misfitT_iff t (specFor_wf k l t hw e1) _).2 ⟨q, u, h1, m2, by rw [lookup_items]; exact h3⟩⟩
termination_by sizeOf t

/-! ## the validation -/

theorem specAt_append (q q' : List Str) (t : CT S) : specAt (q ++ q') t = (specAt q t).bind (specAt q') := by
  induction q generalizing t with
  | nil => rfl
  | cons k q ih =>
    cases t with
    | val s => simp [specAt]
    | sec l =>
      simp only [List.cons_append, specAt]
      cases specFor k l with
      | none => rfl
      | some t => exact ih t

theorem specAt_val_longer (q : List Str) (a : Str) (q' : List Str) (t : CT S) (s : S) (h : specAt q t = some (.val s)) : specAt (q ++ a :: q') t = none := by
  rw [specAt_append, h]; rfl

theorem not_misfit_shape (specs : List (Str × CT (LoadSpec V))) (hw : WfTree (.sec specs)) (c : List (Str × CT V))
    (hm : ¬ Misfit (.sec specs) (some (.sec c))) : shapeError (expandSpecs specs c) c = false := by
  have hwE : WfTree (.sec (expandSpecs specs c)) := by rw [expandSpecs_eq]; exact expandT_wf _ hw _
  unfold shapeError
  rw [List.any_eq_false]
  rintro ⟨path, key⟩ hx
  obtain ⟨s, hl⟩ := (mem_leaves_iff _ hwE path key).1 hx
  dsimp only
  rw [Bool.or_eq_true, not_or]
  constructor
  · rw [List.any_eq_true]
    rintro ⟨q, hq, hv⟩
    rw [List.mem_inits] at hq
    obtain ⟨t, rfl⟩ := hq
    have k2 : kindAt q (.sec (expandSpecs specs c)) = some true := by
      refine kindAt_prefix q (t ++ [key]) _ (by simp) ?_
      rw [← List.append_assoc, (leafAt_eq_some _ _ _).1 hl]
      simp
    unfold kindAt at k2
    cases hg : getT q (.sec (expandSpecs specs c)) with
    | none => rw [hg] at k2; cases k2
    | some u =>
      rw [hg] at k2
      cases u with
      | val _ => cases k2
      | sec lu =>
        rw [expandSpecs_eq] at hg
        obtain ⟨t', h1, h2, h3⟩ := (getT_expand q _ hw _ _).1 hg
        refine hm ⟨q, t', h1, h2, ?_⟩
        cases t' with
        | val _ => rw [expandT] at h3; cases h3
        | sec _ =>
          show hasKind false (getT q (.sec c)) = true
          cases hgc : getT q (.sec c) with
          | none => rw [hgc] at hv; cases hv
          | some w => cases w with
            | val _ => rfl
            | sec _ => rw [hgc] at hv; cases hv
  · intro hv
    obtain ⟨h1, h2⟩ := (leaf_expand specs hw c _ s).1 hl
    refine hm ⟨path ++ [key], _, h1, h2, ?_⟩
    show hasKind true (getT (path ++ [key]) (.sec c)) = true
    cases hgc : getT (path ++ [key]) (.sec c) with
    | none => rw [hgc] at hv; cases hv
    | some w => cases w with
      | val _ => rw [hgc] at hv; cases hv
      | sec _ => rfl

theorem validateMany_eq (specs : List (Str × CT (LoadSpec V))) (hw : WfTree (.sec specs)) (c : List (Str × CT V)) :
    (Misfit (.sec specs) (some (.sec c)) → validateMany specs c = .error .validate) ∧
    (¬ Misfit (.sec specs) (some (.sec c)) → validateMany specs c = validateCfg (expandSpecs specs c) c) := by
  have e : misfitT (.sec specs) (some (.sec c)) = misfitL (specs.map Prod.fst) specs c := by rw [misfitT]; rfl
  unfold validateMany
  rw [← e]
  constructor
  · intro h
    rw [(misfitT_iff _ hw _).2 h]; rfl
  · intro h
    have : misfitT (.sec specs) (some (.sec c)) = false := by
      rw [Bool.eq_false_iff]
      exact fun hh => h ((misfitT_iff _ hw _).1 hh)
    rw [this]; rfl

/-- the option `r` is looked at by the validation of `c`, with the specification `s` -/
def Checks (specs : List (Str × CT S)) (c : List (Str × CT V)) (r : List Str) (s : S) : Prop :=
  specAt r (.sec specs) = some (.val s) ∧ MeetsMany r (.sec specs) (some (.sec c))

theorem snoc_of_spec (specs : List (Str × CT S)) (r : List Str) (s : S) (h : specAt r (.sec specs) = some (.val s)) : ∃ path key, r = path ++ [key] := by
  rcases List.eq_nil_or_concat r with rfl | ⟨p, k, rfl⟩
  · simp [specAt] at h
  · exact ⟨p, k, by simp⟩

/-- **C168** (validation): a configuration without misplaced sections is accepted exactly when every option that is checked has a value
accepted, or a default and no value; its values are then those checked, and all other values are kept. -/
theorem C168_validate (specs : List (Str × CT (LoadSpec V))) (hw : WfTree (.sec specs)) (c : List (Str × CT V)) :
    (Misfit (.sec specs) (some (.sec c)) → validateMany specs c = .error .validate) ∧
    (¬ Misfit (.sec specs) (some (.sec c)) →
      ((∃ out, validateMany specs c = .ok out) ↔ ∀ r s, Checks specs c r s → (checked s (leafAt r (.sec c))).isSome) ∧
      ∀ out, validateMany specs c = .ok out →
        (∀ r s, Checks specs c r s → leafAt r (.sec out) = checked s (leafAt r (.sec c))) ∧
        (∀ r, (∀ s, ¬ Checks specs c r s) → leafAt r (.sec out) = leafAt r (.sec c))) := by
  obtain ⟨v1, v2⟩ := validateMany_eq specs hw c
  refine ⟨v1, fun hm => ?_⟩
  rw [v2 hm]
  have hwE : WfTree (.sec (expandSpecs specs c)) := by rw [expandSpecs_eq]; exact expandT_wf _ hw _
  obtain ⟨p1, p2⟩ := validate_spec (expandSpecs specs c) hwE c (not_misfit_shape specs hw c hm)
  constructor
  · rw [p1]
    constructor
    · intro h r s hc
      obtain ⟨path, key, rfl⟩ := snoc_of_spec specs r s hc.1
      exact h path key s ((leaf_expand specs hw c _ s).2 hc)
    · intro h path key s hl
      exact h _ s ((leaf_expand specs hw c _ s).1 hl)
  · intro out ho
    obtain ⟨o1, o2⟩ := p2 out ho
    have hval : ∀ r s, Checks specs c r s → leafAt r (.sec out) = checked s (leafAt r (.sec c)) := by
      intro r s hc
      obtain ⟨path, key, rfl⟩ := snoc_of_spec specs r s hc.1
      exact o1 path key s ((leaf_expand specs hw c _ s).2 hc)
    refine ⟨hval, fun r hr => ?_⟩
    by_cases hfree : ∀ x ∈ leavesL [] (expandSpecs specs c), ¬ r <+: x.1 ∧ ¬ x.1 ++ [x.2] <+: r
    · exact o2 r hfree
    push Not at hfree
    obtain ⟨⟨path, key⟩, hx, hbad⟩ := hfree
    dsimp only at hbad
    obtain ⟨s, hl⟩ := (mem_leaves_iff _ hwE path key).1 hx
    have hc := (leaf_expand specs hw c _ s).1 hl
    have hok := p1.1 ⟨out, ho⟩ path key s hl
    have hv := hval _ s hc
    obtain ⟨w, hw'⟩ := Option.isSome_iff_exists.1 hok
    rw [hw'] at hv
    by_cases hp : r <+: path
    · -- a section on both sides
      obtain ⟨t, rfl⟩ := hp
      have k1 : kindAt r (.sec out) = some true := by
        refine kindAt_prefix r (t ++ [key]) _ (by simp) ?_
        rw [← List.append_assoc, (leafAt_eq_some _ _ _).1 hv]
        simp
      have n1 : leafAt r (.sec out) = none := (leafAt_none_iff _ _).2 (by rw [k1]; simp)
      have n2 : leafAt r (.sec c) = none := by
        cases hcr : leafAt r (.sec c) with
        | none => rfl
        | some v =>
          exfalso
          apply hm
          have k2 : kindAt r (.sec (expandSpecs specs c)) = some true := by
            refine kindAt_prefix r (t ++ [key]) _ (by simp) ?_
            rw [← List.append_assoc, (leafAt_eq_some _ _ _).1 hl]
            simp
          unfold kindAt at k2
          cases hg : getT r (.sec (expandSpecs specs c)) with
          | none => rw [hg] at k2; cases k2
          | some u =>
            rw [hg] at k2
            cases u with
            | val _ => cases k2
            | sec lu =>
              rw [expandSpecs_eq] at hg
              obtain ⟨t', h1, h2, h3⟩ := (getT_expand r _ hw _ _).1 hg
              refine ⟨r, t', h1, h2, ?_⟩
              cases t' with
              | val _ => rw [expandT] at h3; cases h3
              | sec _ =>
                show hasKind false (getT r (.sec c)) = true
                rw [(leafAt_eq_some _ _ _).1 hcr]; rfl
      rw [n1, n2]
    · obtain ⟨t, ht⟩ := hbad hp
      cases t with
      | nil =>
        rw [List.append_nil] at ht
        subst ht
        exact absurd hc (hr s)
      | cons a t =>
        subst ht
        have n1 : leafAt (path ++ [key] ++ a :: t) (.sec out) = none := by
          unfold leafAt
          rw [getT_append, (leafAt_eq_some _ _ _).1 hv]; rfl
        have n2 : leafAt (path ++ [key] ++ a :: t) (.sec c) = none := by
          cases hcr : leafAt (path ++ [key] ++ a :: t) (.sec c) with
          | none => rfl
          | some v =>
            exfalso
            refine hm ⟨_, _, hc.1, hc.2, ?_⟩
            have k1 := kindAt_prefix (path ++ [key]) (a :: t) (.sec c) (by simp) (by rw [(leafAt_eq_some _ _ _).1 hcr]; simp)
            unfold kindAt at k1
            show hasKind true (getT (path ++ [key]) (.sec c)) = true
            cases hgc : getT (path ++ [key]) (.sec c) with
            | none => rw [hgc] at k1; cases k1
            | some u => cases u with
              | val _ => rw [hgc] at k1; cases k1
              | sec _ => rfl
        rw [n1, n2]

/-! ## loading -/

/-- in the specifications and in the trees given, a path is always the path of an option or always the path of a section -/
def ManyKinds (specs : List (Str × CT S)) (trees : List (List (Str × CT V))) : Prop :=
  ∃ K : List Str → Bool → Prop, (∀ r b b', K r b → K r b' → b = b') ∧ (∀ r t, specAt r (.sec specs) = some t → K r t.isSecT) ∧ ∀ t ∈ trees, Within K t

theorem hasKind_iff (b : Bool) (r : List Str) (c : CT V) : hasKind b (getT r c) = true ↔ kindAt r c = some b := by
  unfold kindAt
  cases getT r c with
  | none => simp [hasKind]
  | some t => cases t <;> cases b <;> simp [hasKind, CT.isSecT]

theorem kinds_fit (specs : List (Str × CT S)) (K : List Str → Bool → Prop) (hK : ∀ r b b', K r b → K r b' → b = b')
    (hs : ∀ r t, specAt r (.sec specs) = some t → K r t.isSecT) (c : List (Str × CT V)) (hc : Within K c) : ¬ Misfit (.sec specs) (some (.sec c)) := by
  rintro ⟨q, u, h1, -, h3⟩
  have k1 : kindAt q (.sec c) = some (!u.isSecT) := (hasKind_iff _ _ _).1 h3
  have := hK _ _ _ (hc _ _ k1) (hs _ _ h1)
  cases hu : u.isSecT <;> rw [hu] at this <;> cases this

theorem rawLeaf {T : Typing V} (hT : T.Lawful) (specs : List (Str × CT S)) (src : List (Str × CT V)) (patch : Option (List (Str × CT V)))
    (kw : List (Str × CT V)) (K : List Str → Bool → Prop) (hK : ∀ r b b', K r b → K r b' → b = b') (h1 : Within K src) (h2 : Within K (patch.getD []))
    (h3 : Within K kw) (path : List Str) (key : Str) (hclean : cleanPath path) :
    leafAt (path ++ [key]) (.sec (loadRaw T specs src patch kw)) = givenValue T src (patch.getD []) kw (path ++ [key]) := by
  unfold loadRaw loadPatch givenValue
  by_cases he : kw.isEmpty
  · have : kw = [] := by simpa using he
    subst this
    simp only [List.isEmpty_nil, if_true, leafAt_nil_cfg]
    cases patch with
    | none => simp only [Option.getD_none, leafAt_nil_cfg]
    | some p => simp only [Option.getD_some]; exact patch_leaf hT specs src p (within_compatible hK h1 h2) path key hclean
  · rw [if_neg he]
    dsimp only
    rw [patch_leaf hT specs src _ (within_compatible hK h1 (within_patch hK hT specs h2 h3)) path key hclean,
      patch_leaf hT specs _ kw (within_compatible hK h2 h3) path key hclean]

/-- the parts of a path that have a specification have one as well -/
theorem manyParts_spec (r : List Str) (t u : CT S) (h : specAt r t = some u) : ∀ p ∈ manyParts r t, (∃ w, specAt p t = some w) ∧ p <+: r ∧ p ≠ [] := by
  induction r generalizing t with
  | nil => intro p hp; simp [manyParts] at hp
  | cons k q ih =>
    intro p hp
    cases t with
    | val s => simp [specAt] at h
    | sec l =>
      simp only [specAt] at h
      cases e1 : specFor k l with
      | none => rw [e1] at h; cases h
      | some t =>
        rw [e1] at h
        rw [manyParts, e1, List.mem_append] at hp
        rcases hp with hp | hp
        · split at hp
          · rw [List.mem_singleton.1 hp]
            exact ⟨⟨t, by simp [specAt, e1]⟩, ⟨q, rfl⟩, by simp⟩
          · cases hp
        · obtain ⟨p', hp', rfl⟩ := List.mem_map.1 hp
          obtain ⟨⟨w, hw⟩, ⟨z, hz⟩, -⟩ := ih t h p' hp'
          exact ⟨⟨w, by simp [specAt, e1, hw]⟩, ⟨z, by simp [hz]⟩, by simp⟩

/-- the tree has something at each part of the path that is for a `__many__` -/
theorem meets_of_present (specs : List (Str × CT S)) (K : List Str → Bool → Prop) (hK : ∀ r b b', K r b → K r b' → b = b')
    (hs : ∀ r t, specAt r (.sec specs) = some t → K r t.isSecT) (c : List (Str × CT V)) (hc : Within K c) (r : List Str) (u : CT S)
    (hr : specAt r (.sec specs) = some u) : MeetsMany r (.sec specs) (some (.sec c)) ↔ ∀ p ∈ manyParts r (.sec specs), kindAt p (.sec c) ≠ none := by
  constructor
  · intro h p hp
    obtain ⟨w, -, h2⟩ := h p hp
    rw [(hasKind_iff w.isSecT p (.sec c)).1 h2]
    simp
  · intro h p hp
    obtain ⟨⟨w, hw⟩, -, -⟩ := manyParts_spec r _ u hr p hp
    refine ⟨w, hw, (hasKind_iff w.isSecT p (.sec c)).2 ?_⟩
    cases hk : kindAt p (.sec c) with
    | none => exact absurd hk (h p hp)
    | some b => rw [hK _ _ _ (hc _ _ hk) (hs _ _ hw)]

/-- every section of a tree has an option -/
def NoEmptySections (t : List (Str × CT V)) : Prop := ∀ p, p ≠ [] → kindAt p (.sec t) = some true → ∃ path key, p <+: path ∧ leafAt (path ++ [key]) (.sec t) ≠ none

/-- all the sections of a tree have names without underscores at their ends -/
def CleanTree (t : List (Str × CT V)) : Prop := ∀ path key, leafAt (path ++ [key]) (.sec t) ≠ none → cleanPath path

theorem given_iff (T : Typing V) (src patch kw : List (Str × CT V)) (r : List Str) :
    givenValue T src patch kw r ≠ none ↔ ∃ t ∈ [src, patch, kw], leafAt r (.sec t) ≠ none := by
  unfold givenValue
  cases h1 : leafAt r (.sec kw) <;> cases h2 : leafAt r (.sec patch) <;> cases h3 : leafAt r (.sec src) <;> simp [h1, h2, h3]

theorem loadMany_ok (T : Typing V) (specs : List (Str × CT (LoadSpec V))) (own : Option Filt) (od : Bool) (fs : Str → Option (List (Str × CT V))) (o : LoadOpts V)
    (hf : usedFilter own o.cfgfilter = none) (hv : o.validate.truthy = true) (hne : specs ≠ []) :
    loadMany T specs own od fs o = validateMany specs (loadRaw T specs (readCfg fs o.cfgfile) (o.patch.map PatchSrc.tree) o.kw) := by
  unfold loadMany loadFilter
  have : specs.isEmpty = false := by cases specs with
    | nil => exact absurd rfl hne
    | cons _ _ => rfl
  rw [hf, hv, this]
  rfl

theorem specs_ne_nil (specs : List (Str × CT S)) (path : List Str) (key : Str) (t : CT S) (h : specAt (path ++ [key]) (.sec specs) = some t) : specs ≠ [] := by
  rintro rfl
  have e : ∀ k, specFor k ([] : List (Str × CT S)) = none := by
    intro k
    unfold specFor
    split <;> rfl
  cases path with
  | nil => rw [List.nil_append, specAt, e] at h; cases h
  | cons a p => rw [List.cons_append, specAt, e] at h; cases h

/-! ### the sections of a configuration are kept by a patch -/

theorem ensure_exists (path : List Str) (p c : List (Str × CT V)) (hc : Compatible c p) (r : List Str) (h : getT r (.sec c) ≠ none) :
    getT r (.sec (ensurePath path p c)) ≠ none := by
  induction path generalizing p c r with
  | nil => exact h
  | cons k path ih =>
    simp only [ensurePath]
    cases hl : lookupS k p with
    | none => exact h
    | some t =>
      cases t with
      | val v => exact h
      | sec p' =>
        simp only
        cases r with
        | nil => simp [getT]
        | cons a q =>
          by_cases ha : a = k
          · subst ha
            have hcomp : Compatible (subItems a c) p' := by
              intro s b b' h1 h2
              cases s with
              | nil => simp [kindAt, getT] at h1 h2; rw [h1, h2]
              | cons x s =>
                apply hc (a :: x :: s) b b'
                · unfold kindAt at h1 ⊢
                  rw [getT_cons_sub a (x :: s) c (by simp)] at h1
                  exact h1
                · unfold kindAt at h2 ⊢
                  simp only [getT, hl, Option.bind_some]
                  simpa [getT] using h2
            simp only [getT, lookupS_setS, if_true, Option.bind_some]
            cases q with
            | nil => simp [getT]
            | cons x q =>
              refine ih p' (subItems a c) hcomp (x :: q) ?_
              rw [getT_cons_sub a (x :: q) c (by simp)]
              exact h
          · simp only [getT, lookupS_setS, if_neg ha] at h ⊢
            exact h

theorem visit_exists (T : Typing V) (pk : List Str × Str) (c p : List (Str × CT V)) (hc : Compatible c p) (r : List Str) (h : getT r (.sec c) ≠ none) :
    getT r (.sec (visit T pk (c, p)).1) ≠ none := by
  simp only [visit]
  generalize pk.1.map stripU = path
  generalize pk.2 = k
  have he := ensure_exists path p c hc r h
  cases hv : leafAt (path ++ [k]) (.sec p) with
  | none => exact he
  | some v =>
    dsimp only
    by_cases h1 : r <+: path
    · have := getT_setAt_prefix path k (.val (coerced T (leafAt (path ++ [k]) (.sec (ensurePath path p c))) v)) (ensurePath path p c) r h1
      intro hn
      unfold kindAt at this
      rw [hn] at this
      cases this
    · by_cases h2 : path ++ [k] <+: r
      · obtain ⟨s, rfl⟩ := h2
        cases s with
        | nil =>
          rw [List.append_nil]
          have := getT_setAt_same path k (.val (coerced T (leafAt (path ++ [k]) (.sec (ensurePath path p c))) v)) (ensurePath path p c) []
          rw [this]; simp [getT]
        | cons a s =>
          have k1 := kindAt_prefix (path ++ [k]) (a :: s) (.sec c) (by simp) h
          have k2 := kindAt_leaf _ _ _ hv
          cases hc _ _ _ k1 k2
      · rw [getT_setAt_other path k _ _ r h1 h2]
        exact he

theorem walk_exists {T : Typing V} (hT : T.Lawful) {c0 p0 : List (Str × CT V)} (hcomp : Compatible c0 p0) (vs : List (List Str × Str))
    (st : List (Str × CT V) × List (Str × CT V)) (h : PInv T c0 p0 st.1 st.2) (r : List Str) (hr : getT r (.sec st.1) ≠ none) :
    getT r (.sec (vs.foldl (fun st pk => visit T pk st) st).1) ≠ none := by
  induction vs generalizing st with
  | nil => exact hr
  | cons pk vs ih =>
    rw [List.foldl_cons]
    exact ih _ (visit_inv hT hcomp h pk).1 (visit_exists T pk st.1 st.2 (h.compat hcomp) r hr)

theorem patch_exists {T : Typing V} (hT : T.Lawful) (specs : List (Str × CT S)) (c p : List (Str × CT V)) (hcomp : Compatible c p) (r : List Str)
    (hr : getT r (.sec c) ≠ none) : getT r (.sec (patchCfg T specs c p)) ≠ none := by
  have h0 : PInv T c p (c, p).1 (c, p).2 :=
    ⟨fun r => rfl, fun r b h => Or.inl h, fun r _ => rfl, fun r v h => Or.inl ⟨h, rfl⟩⟩
  obtain ⟨h1, _, _⟩ := walk_inv hT hcomp (leavesL [] specs) (c, p) h0
  exact walk_exists hT hcomp _ _ h1 r (walk_exists hT hcomp _ (c, p) h0 r hr)

theorem raw_exists {T : Typing V} (hT : T.Lawful) (specs : List (Str × CT S)) (src : List (Str × CT V)) (patch : Option (List (Str × CT V)))
    (kw : List (Str × CT V)) (K : List Str → Bool → Prop) (hK : ∀ r b b', K r b → K r b' → b = b') (h1 : Within K src) (h2 : Within K (patch.getD []))
    (h3 : Within K kw) (r : List Str) (hr : getT r (.sec src) ≠ none) : getT r (.sec (loadRaw T specs src patch kw)) ≠ none := by
  unfold loadRaw loadPatch
  by_cases he : kw.isEmpty
  · rw [if_pos he]
    cases patch with
    | none => exact hr
    | some p => exact patch_exists hT specs src p (within_compatible hK h1 h2) r hr
  · rw [if_neg he]
    exact patch_exists hT specs src _ (within_compatible hK h1 (within_patch hK hT specs h2 h3)) r hr

theorem kindAt_ne_none (r : List Str) (t : CT V) : kindAt r t ≠ none ↔ getT r t ≠ none := by
  unfold kindAt
  cases getT r t with
  | none => simp
  | some u => cases u <;> simp

/-- the section or option `p` is in the file, or something is given at `p` or below it by the patch or the keywords -/
def Mentioned (T : Typing V) (fs : Str → Option (List (Str × CT V))) (o : LoadOpts V) (p : List Str) : Prop :=
  kindAt p (.sec (readCfg fs o.cfgfile)) ≠ none ∨ ∃ path key, cleanPath path ∧ p <+: path ++ [key] ∧ loadGiven T fs o (path ++ [key]) ≠ none

theorem mentioned_raw {T : Typing V} (hT : T.Lawful) (specs : List (Str × CT S)) (fs : Str → Option (List (Str × CT V))) (o : LoadOpts V)
    (K : List Str → Bool → Prop) (hK : ∀ r b b', K r b → K r b' → b = b') (h2 : ∀ t ∈ loadTrees fs o, Within K t) (p : List Str) (h : Mentioned T fs o p) :
    kindAt p (.sec (loadRaw T specs (readCfg fs o.cfgfile) (o.patch.map PatchSrc.tree) o.kw)) ≠ none := by
  have w1 := h2 (readCfg fs o.cfgfile) (by simp [loadTrees])
  have w2 := h2 ((o.patch.map PatchSrc.tree).getD []) (by simp [loadTrees])
  have w3 := h2 o.kw (by simp [loadTrees])
  rcases h with h | ⟨p2, k2, c2, ⟨z, hz⟩, g2⟩
  · exact (kindAt_ne_none _ _).2 (raw_exists hT specs _ (o.patch.map PatchSrc.tree) o.kw K hK w1 w2 w3 p ((kindAt_ne_none _ _).1 h))
  · have hl2 := rawLeaf hT specs _ (o.patch.map PatchSrc.tree) o.kw K hK w1 w2 w3 p2 k2 c2
    obtain ⟨v2, hv2⟩ := Option.ne_none_iff_exists'.1 g2
    have hl3 : leafAt (p2 ++ [k2]) (.sec (loadRaw T specs (readCfg fs o.cfgfile) (o.patch.map PatchSrc.tree) o.kw)) = some v2 := by rw [hl2]; exact hv2
    cases z with
    | nil => rw [List.append_nil] at hz; rw [hz, kindAt_leaf _ _ _ hl3]; simp
    | cons a z => rw [kindAt_prefix p (a :: z) _ (by simp) (by rw [hz, (leafAt_eq_some _ _ _).1 hl3]; simp)]; simp

/-- **C168** (values): after `load` with validation, an option given in a section without specifications of its own has the value checked with the
specifications of `__many__`, and one with specifications of its own with these; the value is the one given by
keywords, else by the patch, else by the file. -/
theorem C168_value (T : Typing V) (hT : T.Lawful) (specs : List (Str × CT (LoadSpec V))) (hw : WfTree (.sec specs)) (own : Option Filt) (od : Bool)
    (fs : Str → Option (List (Str × CT V))) (o : LoadOpts V) (hf : usedFilter own o.cfgfilter = none) (hv : o.validate.truthy = true)
    (hsame : ManyKinds specs (loadTrees fs o)) (out : List (Str × CT V)) (h : loadMany T specs own od fs o = .ok out)
    (path : List Str) (key : Str) (hclean : cleanPath path) (s : LoadSpec V) (hs : specAt (path ++ [key]) (.sec specs) = some (.val s))
    (v : V) (hg : loadGiven T fs o (path ++ [key]) = some v) : leafAt (path ++ [key]) (.sec out) = s.chk v := by
  rw [loadMany_ok T specs own od fs o hf hv (specs_ne_nil specs path key _ hs)] at h
  obtain ⟨K, hK, h1, h2⟩ := hsame
  have w1 := h2 (readCfg fs o.cfgfile) (by simp [loadTrees])
  have w2 := h2 ((o.patch.map PatchSrc.tree).getD []) (by simp [loadTrees])
  have w3 := h2 o.kw (by simp [loadTrees])
  have hraw := raw_within hT specs _ (o.patch.map PatchSrc.tree) o.kw K hK w1 w2 w3
  have hl := rawLeaf hT specs _ (o.patch.map PatchSrc.tree) o.kw K hK w1 w2 w3 path key hclean
  have hl' : leafAt (path ++ [key]) (.sec (loadRaw T specs (readCfg fs o.cfgfile) (o.patch.map PatchSrc.tree) o.kw)) = some v := by rw [hl]; exact hg
  have hm := (meets_of_present specs K hK h1 _ hraw _ _ hs).2 (by
    intro p hp
    obtain ⟨-, ⟨z, hz⟩, -⟩ := manyParts_spec _ _ _ hs p hp
    cases z with
    | nil => rw [List.append_nil] at hz; rw [hz, kindAt_leaf _ _ _ hl']; simp
    | cons a z => rw [kindAt_prefix p (a :: z) _ (by simp) (by rw [hz, (leafAt_eq_some _ _ _).1 hl']; simp)]; simp)
  rw [(((C168_validate specs hw _).2 (kinds_fit specs K hK h1 _ hraw)).2 out h).1 _ s ⟨hs, hm⟩, hl']
  rfl

/-- **C168** (defaults): an option that is not given has its default in every section with specifications of its own, and in every section for
`__many__` that is in the file or where something is given. -/
theorem C168_default (T : Typing V) (hT : T.Lawful) (specs : List (Str × CT (LoadSpec V))) (hw : WfTree (.sec specs)) (own : Option Filt) (od : Bool)
    (fs : Str → Option (List (Str × CT V))) (o : LoadOpts V) (hf : usedFilter own o.cfgfilter = none) (hv : o.validate.truthy = true)
    (hsame : ManyKinds specs (loadTrees fs o)) (out : List (Str × CT V)) (h : loadMany T specs own od fs o = .ok out)
    (path : List Str) (key : Str) (hclean : cleanPath path) (s : LoadSpec V) (hs : specAt (path ++ [key]) (.sec specs) = some (.val s))
    (hg : loadGiven T fs o (path ++ [key]) = none)
    (hp : ∀ p ∈ manyParts (path ++ [key]) (.sec specs), Mentioned T fs o p) :
    leafAt (path ++ [key]) (.sec out) = s.dflt := by
  rw [loadMany_ok T specs own od fs o hf hv (specs_ne_nil specs path key _ hs)] at h
  obtain ⟨K, hK, h1, h2⟩ := hsame
  have w1 := h2 (readCfg fs o.cfgfile) (by simp [loadTrees])
  have w2 := h2 ((o.patch.map PatchSrc.tree).getD []) (by simp [loadTrees])
  have w3 := h2 o.kw (by simp [loadTrees])
  have hraw := raw_within hT specs _ (o.patch.map PatchSrc.tree) o.kw K hK w1 w2 w3
  have hl := rawLeaf hT specs _ (o.patch.map PatchSrc.tree) o.kw K hK w1 w2 w3 path key hclean
  have hl' : leafAt (path ++ [key]) (.sec (loadRaw T specs (readCfg fs o.cfgfile) (o.patch.map PatchSrc.tree) o.kw)) = none := by rw [hl]; exact hg
  have hm := (meets_of_present specs K hK h1 _ hraw _ _ hs).2 (by
    intro p hpm
    exact mentioned_raw hT specs fs o K hK h2 p (hp p hpm))
  rw [(((C168_validate specs hw _).2 (kinds_fit specs K hK h1 _ hraw)).2 out h).1 _ s ⟨hs, hm⟩, hl']
  rfl

/-- **C168** (nothing is invented): in a section for `__many__` that is nowhere in the file, the patch and the keywords, there is no option. -/
theorem C168_absent (T : Typing V) (hT : T.Lawful) (specs : List (Str × CT (LoadSpec V))) (hw : WfTree (.sec specs)) (own : Option Filt) (od : Bool)
    (fs : Str → Option (List (Str × CT V))) (o : LoadOpts V) (hf : usedFilter own o.cfgfilter = none) (hv : o.validate.truthy = true)
    (hsame : ManyKinds specs (loadTrees fs o)) (out : List (Str × CT V)) (h : loadMany T specs own od fs o = .ok out)
    (path : List Str) (key : Str) (t : CT (LoadSpec V)) (hs : specAt (path ++ [key]) (.sec specs) = some t)
    (p : List Str) (hp : p ∈ manyParts (path ++ [key]) (.sec specs)) (hno : ∀ t ∈ loadTrees fs o, kindAt p (.sec t) = none) :
    leafAt (path ++ [key]) (.sec out) = none := by
  rw [loadMany_ok T specs own od fs o hf hv (specs_ne_nil specs path key _ hs)] at h
  obtain ⟨K, hK, h1, h2⟩ := hsame
  -- the kinds of the trees that are given
  have hKT : ∀ t ∈ loadTrees fs o, Within (fun r b => ∃ t ∈ loadTrees fs o, kindAt r (.sec t) = some b) t := fun t ht r b hb => ⟨t, ht, hb⟩
  have hKf : ∀ (r : List Str) (b b' : Bool), (∃ t ∈ loadTrees fs o, kindAt r (.sec t) = some b) → (∃ t ∈ loadTrees fs o, kindAt r (.sec t) = some b') → b = b' := by
    rintro r b b' ⟨t, ht, hb⟩ ⟨t', ht', hb'⟩
    exact hK _ _ _ (h2 t ht _ _ hb) (h2 t' ht' _ _ hb')
  have hraw' := raw_within hT specs _ (o.patch.map PatchSrc.tree) o.kw _ hKf (hKT (readCfg fs o.cfgfile) (by simp [loadTrees])) (hKT _ (by simp [loadTrees])) (hKT _ (by simp [loadTrees]))
  have hraw := raw_within hT specs _ (o.patch.map PatchSrc.tree) o.kw K hK (h2 (readCfg fs o.cfgfile) (by simp [loadTrees])) (h2 _ (by simp [loadTrees])) (h2 _ (by simp [loadTrees]))
  have hkp : kindAt p (.sec (loadRaw T specs (readCfg fs o.cfgfile) (o.patch.map PatchSrc.tree) o.kw)) = none := by
    cases hk : kindAt p (.sec (loadRaw T specs (readCfg fs o.cfgfile) (o.patch.map PatchSrc.tree) o.kw)) with
    | none => rfl
    | some b =>
      obtain ⟨t, ht, hb⟩ := hraw' _ _ hk
      rw [hno t ht] at hb
      cases hb
  have hnm : ∀ s, ¬ Checks specs (loadRaw T specs (readCfg fs o.cfgfile) (o.patch.map PatchSrc.tree) o.kw) (path ++ [key]) s := by
    rintro s ⟨hs', hm⟩
    exact (meets_of_present specs K hK h1 _ hraw _ _ hs').1 hm p hp hkp
  rw [(((C168_validate specs hw _).2 (kinds_fit specs K hK h1 _ hraw)).2 out h).2 _ hnm]
  obtain ⟨-, ⟨z, hz⟩, -⟩ := manyParts_spec _ _ _ hs p hp
  unfold leafAt
  rw [← hz, getT_append]
  have : getT p (.sec (loadRaw T specs (readCfg fs o.cfgfile) (o.patch.map PatchSrc.tree) o.kw)) = none := by
    unfold kindAt at hkp
    cases hg : getT p (.sec (loadRaw T specs (readCfg fs o.cfgfile) (o.patch.map PatchSrc.tree) o.kw)) with
    | none => rfl
    | some u => rw [hg] at hkp; cases u <;> cases hkp
  rw [this]
  rfl

/-- **C168** (other options): an option that neither has specifications of its own nor is for a `__many__` keeps the value given for it. -/
theorem C168_extra (T : Typing V) (hT : T.Lawful) (specs : List (Str × CT (LoadSpec V))) (hw : WfTree (.sec specs)) (own : Option Filt) (od : Bool)
    (fs : Str → Option (List (Str × CT V))) (o : LoadOpts V) (hf : usedFilter own o.cfgfilter = none)
    (hsame : ManyKinds specs (loadTrees fs o)) (out : List (Str × CT V)) (h : loadMany T specs own od fs o = .ok out)
    (path : List Str) (key : Str) (hclean : cleanPath path) (hs : specAt (path ++ [key]) (.sec specs) = none) :
    leafAt (path ++ [key]) (.sec out) = loadGiven T fs o (path ++ [key]) := by
  obtain ⟨K, hK, h1, h2⟩ := hsame
  have w1 := h2 (readCfg fs o.cfgfile) (by simp [loadTrees])
  have w2 := h2 ((o.patch.map PatchSrc.tree).getD []) (by simp [loadTrees])
  have w3 := h2 o.kw (by simp [loadTrees])
  have hraw := raw_within hT specs _ (o.patch.map PatchSrc.tree) o.kw K hK w1 w2 w3
  have hl := rawLeaf hT specs _ (o.patch.map PatchSrc.tree) o.kw K hK w1 w2 w3 path key hclean
  unfold loadMany loadFilter at h
  rw [hf] at h
  dsimp only at h
  split at h
  · rw [(((C168_validate specs hw _).2 (kinds_fit specs K hK h1 _ hraw)).2 out h).2 _ (by rintro s ⟨hc, -⟩; rw [hs] at hc; cases hc)]
    exact hl
  · injection h with h
    subst h
    exact hl

/-- with these conditions, a section is mentioned as soon as one of the trees has it -/
theorem mentioned_of_tree (T : Typing V) (fs : Str → Option (List (Str × CT V))) (o : LoadOpts V) (hclean : ∀ t ∈ loadTrees fs o, CleanTree t)
    (hne : ∀ t ∈ loadTrees fs o, NoEmptySections t) (p : List Str) (hp0 : p ≠ []) (t : List (Str × CT V)) (ht : t ∈ loadTrees fs o) (hk : kindAt p (.sec t) ≠ none) :
    Mentioned T fs o p := by
  right
  obtain ⟨b, hb⟩ := Option.ne_none_iff_exists'.1 hk
  have : ∃ path key, p <+: path ++ [key] ∧ leafAt (path ++ [key]) (.sec t) ≠ none := by
    cases b with
    | true =>
      obtain ⟨path, key, h1, h2⟩ := hne t ht p hp0 hb
      exact ⟨path, key, h1.trans (List.prefix_append _ _), h2⟩
    | false =>
      rcases List.eq_nil_or_concat p with rfl | ⟨path, key, e⟩
      · exact absurd rfl hp0
      · rw [List.concat_eq_append] at e
        subst e
        refine ⟨path, key, List.prefix_refl _, fun h0 => ?_⟩
        exact (leafAt_none_iff _ _).1 h0 hb
  obtain ⟨path, key, h1, h2⟩ := this
  refine ⟨path, key, hclean t ht path key h2, h1, ?_⟩
  unfold loadGiven
  rw [given_iff]
  exact ⟨t, ht, h2⟩

theorem components (r : List Str) (t u : CT S) (h : specAt r t = some u) (q : List Str) (k : Str) (hp : q ++ [k] <+: r) :
    (∃ l w, specAt q t = some (.sec l) ∧ lookupS k l = some w ∧ k ≠ manyKey) ∨ q ++ [k] ∈ manyParts r t := by
  induction r generalizing t q with
  | nil => have := List.prefix_nil.1 hp; simp at this
  | cons a r ih =>
    cases t with
    | val s => simp [specAt] at h
    | sec l =>
      simp only [specAt] at h
      cases e1 : specFor a l with
      | none => rw [e1] at h; cases h
      | some t =>
        rw [e1] at h
        rw [manyParts, e1]
        cases q with
        | nil =>
          obtain ⟨z, hz⟩ := hp
          simp only [List.nil_append, List.cons_append, List.cons.injEq] at hz
          obtain ⟨rfl, -⟩ := hz
          cases hl : lookupS k l with
          | some w =>
            left
            refine ⟨l, w, rfl, hl, ?_⟩
            rintro rfl
            unfold specFor at e1
            rw [if_pos rfl] at e1
            cases e1
          | none => right; simp
        | cons b q =>
          obtain ⟨z, hz⟩ := hp
          simp only [List.cons_append, List.cons.injEq] at hz
          obtain ⟨rfl, hz⟩ := hz
          rcases ih t h q ⟨z, hz⟩ with ⟨l', w, g1, g2⟩ | g
          · exact .inl ⟨l', w, by simp [specAt, e1, g1], g2⟩
          · right
            rw [List.mem_append]
            exact .inr (List.mem_map.2 ⟨_, g, rfl⟩)

theorem clean_of_names (specs : List (Str × CT S)) (fs : Str → Option (List (Str × CT V))) (o : LoadOpts V)
    (hsame : ManyKinds specs (loadTrees fs o)) (hcl : ∀ t ∈ loadTrees fs o, CleanTree t) (hne : ∀ t ∈ loadTrees fs o, NoEmptySections t)
    (hnames : ∀ q l k t, specAt q (.sec specs) = some (.sec l) → lookupS k l = some t → k ≠ manyKey → stripU k = k)
    (path : List Str) (key : Str) (s : S) (hs : specAt (path ++ [key]) (.sec specs) = some (.val s))
    (hp : ∀ p ∈ manyParts (path ++ [key]) (.sec specs), ∃ t ∈ loadTrees fs o, kindAt p (.sec t) ≠ none) : cleanPath path := by
  obtain ⟨K, hK, h1, h2⟩ := hsame
  have key1 : ∀ k ∈ path, stripU k = k := by
    intro k hk
    obtain ⟨q, q', rfl⟩ := List.append_of_mem hk
    have hpre : q ++ [k] <+: q ++ k :: q' ++ [key] := ⟨q' ++ [key], by simp⟩
    rcases components _ _ _ hs q k hpre with ⟨l, w, g1, g2, g3⟩ | g
    · exact hnames q l k w g1 g2 g3
    · obtain ⟨t, ht, hk⟩ := hp _ g
      obtain ⟨b, hb⟩ := Option.ne_none_iff_exists'.1 hk
      -- it is a section
      have e : q ++ k :: q' ++ [key] = (q ++ [k]) ++ (q' ++ [key]) := by simp
      rw [e, specAt_append] at hs
      cases hw : specAt (q ++ [k]) (.sec specs) with
      | none => rw [hw] at hs; cases hs
      | some w =>
        rw [hw] at hs
        have hsec : w.isSecT = true := by
          cases w with
          | val _ => cases q' <;> simp [specAt] at hs
          | sec _ => rfl
        have := hK _ _ _ (h2 t ht _ _ hb) (h1 _ _ hw)
        rw [hsec] at this
        subst this
        obtain ⟨p2, k2, g4, g5⟩ := hne t ht _ (by simp) hb
        have hc := hcl t ht p2 k2 g5
        unfold cleanPath at hc
        have hmem : k ∈ p2 := g4.subset (by simp)
        obtain ⟨a, a', rfl⟩ := List.append_of_mem hmem
        rw [List.map_append, List.map_cons] at hc
        have := List.append_inj hc (by simp)
        exact (List.cons.inj this.2).1
  unfold cleanPath
  exact (List.map_congr_left key1).trans (by simp)

/-- **C168** (errors): `load` with validation succeeds exactly when every option given is accepted by its specification, its own one or the one
of `__many__`, and every option that is not given has a default, unless it is in a section for `__many__` that does not exist. -/
theorem C168_accepts_iff (T : Typing V) (hT : T.Lawful) (specs : List (Str × CT (LoadSpec V))) (hw : WfTree (.sec specs)) (own : Option Filt) (od : Bool)
    (fs : Str → Option (List (Str × CT V))) (o : LoadOpts V) (hf : usedFilter own o.cfgfilter = none) (hv : o.validate.truthy = true)
    (hsame : ManyKinds specs (loadTrees fs o)) (hcl : ∀ t ∈ loadTrees fs o, CleanTree t) (hne : ∀ t ∈ loadTrees fs o, NoEmptySections t)
    (hnames : ∀ q l k t, specAt q (.sec specs) = some (.sec l) → lookupS k l = some t → k ≠ manyKey → stripU k = k) :
    (∃ out, loadMany T specs own od fs o = .ok out) ↔
      ∀ path key s, specAt (path ++ [key]) (.sec specs) = some (.val s) →
        (∀ v, loadGiven T fs o (path ++ [key]) = some v → s.chk v ≠ none) ∧
        (loadGiven T fs o (path ++ [key]) = none →
          (∀ p ∈ manyParts (path ++ [key]) (.sec specs), ∃ t ∈ loadTrees fs o, kindAt p (.sec t) ≠ none) → s.dflt ≠ none) := by
  by_cases hnil : specs = []
  · subst hnil
    have e : ∀ (q : List Str) (k : Str) (t : CT (LoadSpec V)), specAt (q ++ [k]) (.sec []) ≠ some t := fun q k t h => specs_ne_nil [] q k t h rfl
    constructor
    · intro _ path key s hs
      exact absurd hs (e _ _ _)
    · intro _
      unfold loadMany
      simp
  rw [loadMany_ok T specs own od fs o hf hv hnil]
  have hspecs := clean_of_names specs fs o hsame hcl hne hnames
  obtain ⟨K, hK, h1, h2⟩ := hsame
  have w1 := h2 (readCfg fs o.cfgfile) (by simp [loadTrees])
  have w2 := h2 ((o.patch.map PatchSrc.tree).getD []) (by simp [loadTrees])
  have w3 := h2 o.kw (by simp [loadTrees])
  have hraw := raw_within hT specs _ (o.patch.map PatchSrc.tree) o.kw K hK w1 w2 w3
  have hKT : ∀ t ∈ loadTrees fs o, Within (fun r b => ∃ t ∈ loadTrees fs o, kindAt r (.sec t) = some b) t := fun t ht r b hb => ⟨t, ht, hb⟩
  have hKf : ∀ (r : List Str) (b b' : Bool), (∃ t ∈ loadTrees fs o, kindAt r (.sec t) = some b) → (∃ t ∈ loadTrees fs o, kindAt r (.sec t) = some b') → b = b' := by
    rintro r b b' ⟨t, ht, hb⟩ ⟨t', ht', hb'⟩
    exact hK _ _ _ (h2 t ht _ _ hb) (h2 t' ht' _ _ hb')
  have hraw' := raw_within hT specs _ (o.patch.map PatchSrc.tree) o.kw _ hKf (hKT (readCfg fs o.cfgfile) (by simp [loadTrees])) (hKT _ (by simp [loadTrees])) (hKT _ (by simp [loadTrees]))
  -- the options looked at
  have hmeet : ∀ path key s, specAt (path ++ [key]) (.sec specs) = some (.val s) →
      (MeetsMany (path ++ [key]) (.sec specs) (some (.sec (loadRaw T specs (readCfg fs o.cfgfile) (o.patch.map PatchSrc.tree) o.kw))) ↔
        ∀ p ∈ manyParts (path ++ [key]) (.sec specs), ∃ t ∈ loadTrees fs o, kindAt p (.sec t) ≠ none) := by
    intro path key s hs
    rw [meets_of_present specs K hK h1 _ hraw _ _ hs]
    refine forall₂_congr fun p hp => ?_
    obtain ⟨-, -, hp0⟩ := manyParts_spec _ _ _ hs p hp
    constructor
    · intro hk
      obtain ⟨b, hb⟩ := Option.ne_none_iff_exists'.1 hk
      obtain ⟨t, ht, hb'⟩ := hraw' _ _ hb
      exact ⟨t, ht, by rw [hb']; simp⟩
    · rintro ⟨t, ht, hk⟩
      exact mentioned_raw hT specs fs o K hK h2 p (mentioned_of_tree T fs o hcl hne p hp0 t ht hk)
  rw [((C168_validate specs hw _).2 (kinds_fit specs K hK h1 _ hraw)).1]
  constructor
  · intro H path key s hs
    constructor
    · intro v hg
      have hgp : loadGiven T fs o (path ++ [key]) ≠ none := by rw [hg]; simp
      unfold loadGiven at hgp
      rw [given_iff] at hgp
      obtain ⟨t, ht, hlt⟩ := hgp
      have hpres : ∀ p ∈ manyParts (path ++ [key]) (.sec specs), ∃ t ∈ loadTrees fs o, kindAt p (.sec t) ≠ none := by
        intro p hp
        obtain ⟨-, ⟨z, hz⟩, -⟩ := manyParts_spec _ _ _ hs p hp
        refine ⟨t, ht, ?_⟩
        obtain ⟨w, hlw⟩ := Option.ne_none_iff_exists'.1 hlt
        cases z with
        | nil => rw [List.append_nil] at hz; rw [hz, kindAt_leaf _ _ _ hlw]; simp
        | cons a z => rw [kindAt_prefix p (a :: z) _ (by simp) (by rw [hz, (leafAt_eq_some _ _ _).1 hlw]; simp)]; simp
      have hc := H _ s ⟨hs, (hmeet path key s hs).2 hpres⟩
      have hl : leafAt (path ++ [key]) (.sec (loadRaw T specs (readCfg fs o.cfgfile) (o.patch.map PatchSrc.tree) o.kw)) = loadGiven T fs o (path ++ [key]) :=
        rawLeaf hT specs _ (o.patch.map PatchSrc.tree) o.kw K hK w1 w2 w3 path key (hspecs path key s hs hpres)
      rw [hl, hg] at hc
      exact Option.isSome_iff_ne_none.1 hc
    · intro hg hpres
      have hc := H _ s ⟨hs, (hmeet path key s hs).2 hpres⟩
      have hl : leafAt (path ++ [key]) (.sec (loadRaw T specs (readCfg fs o.cfgfile) (o.patch.map PatchSrc.tree) o.kw)) = loadGiven T fs o (path ++ [key]) :=
        rawLeaf hT specs _ (o.patch.map PatchSrc.tree) o.kw K hK w1 w2 w3 path key (hspecs path key s hs hpres)
      rw [hl, hg] at hc
      exact Option.isSome_iff_ne_none.1 hc
  · rintro H r s ⟨hs, hm⟩
    obtain ⟨path, key, rfl⟩ := snoc_of_spec specs r s hs
    have hpres := (hmeet path key s hs).1 hm
    have hl : leafAt (path ++ [key]) (.sec (loadRaw T specs (readCfg fs o.cfgfile) (o.patch.map PatchSrc.tree) o.kw)) = loadGiven T fs o (path ++ [key]) :=
      rawLeaf hT specs _ (o.patch.map PatchSrc.tree) o.kw K hK w1 w2 w3 path key (hspecs path key s hs hpres)
    obtain ⟨g1, g2⟩ := H path key s hs
    rw [hl, Option.isSome_iff_ne_none]
    cases hg : loadGiven T fs o (path ++ [key]) with
    | none => exact g2 hg hpres
    | some v => exact g1 v hg

/-! ## specifications without `__many__` -/

mutual
/-- no name of the specifications is `__many__` -/
def PlainL : List (Str × CT S) → Prop
  | [] => True
  | (k, t) :: rest => k ≠ manyKey ∧ PlainT t ∧ PlainL rest
def PlainT : CT S → Prop
  | .val _ => True
  | .sec l => PlainL l
end

mutual
theorem expand_plainL (keys : List Str) (l : List (Str × CT S)) (h : PlainL l) (c : List (Str × CT V)) : expandL keys l c = l := by
  match l with
  | [] => rw [expandL]
  | (k, t) :: rest =>
    rw [PlainL] at h
    rw [expandL, if_neg h.1, expand_plainT t h.2.1, expand_plainL keys rest h.2.2]
    rfl
theorem expand_plainT (t : CT S) (h : PlainT t) (c : Option (CT V)) : expandT t c = t := by
  match t with
  | .val s => rw [expandT]
  | .sec l =>
    rw [PlainT] at h
    rw [expandT, expand_plainL _ l h]
end

/-- **C168** (no `__many__`): without `__many__`, this is the validation of `C161`. -/
theorem C168_plain (specs : List (Str × CT (LoadSpec V))) (hw : WfTree (.sec specs)) (hp : PlainL specs) (c : List (Str × CT V))
    (hc : ManyKinds specs [c]) : validateMany specs c = validateCfg specs c := by
  obtain ⟨K, hK, h1, h2⟩ := hc
  rw [(validateMany_eq specs hw c).2 (kinds_fit specs K hK h1 c (h2 c (by simp)))]
  unfold expandSpecs
  rw [expand_plainL _ specs hp]

/-! ## example: the specifications of variables, as in xoa/cf.ini -/

/-- `name = string(default=a)` and `__many__ = integer` -/
def mvSpecs : List (Str × CT (LoadSpec AV)) :=
  [("data_vars".toList, .sec [(manyKey, .sec [("name".toList, .val lvStr), ("select".toList, .sec [(manyKey, .val lvInt)])])])]

def mvCfg : List (Str × CT AV) :=
  [("data_vars".toList, .sec [("temp".toList, .sec [("name".toList, .val (.s "t".toList)), ("select".toList, .sec [("x".toList, .val (.s "11".toList))])]),
    ("sal".toList, .sec [])]), ("other".toList, .val (.s "u".toList))]

def mvLeaves (r : Except LoadErr (List (Str × CT AV))) : Option (List (Option AV)) :=
  match r with
  | .error _ => none
  | .ok c => some [leafAt ["data_vars".toList, "temp".toList, "name".toList] (.sec c), leafAt ["data_vars".toList, "temp".toList, "select".toList, "x".toList] (.sec c),
      leafAt ["data_vars".toList, "sal".toList, "name".toList] (.sec c), leafAt ["other".toList] (.sec c), leafAt ["data_vars".toList, "u".toList, "name".toList] (.sec c)]

/-- values checked, defaults of the sections that exist, other options -/
example : mvLeaves (loadMany avTyping mvSpecs none false (fun _ => none) { cfgfile := .cfg mvCfg }) =
    some [some (.s "t".toList), some (.n 2), some (.s "a".toList), some (.s "u".toList), none] := by decide +kernel
/-- a keyword makes a new section -/
example : mvLeaves (loadMany avTyping mvSpecs none false (fun _ => none) { cfgfile := .cfg mvCfg, kw := [("data_vars".toList, .sec [("u".toList, .sec [("select".toList, .sec [("y".toList, .val (.n 1))])])])] }) =
    some [some (.s "t".toList), some (.n 2), some (.s "a".toList), some (.s "u".toList), some (.s "a".toList)] := by decide +kernel
/-- a value refused by `__many__` -/
example : mvLeaves (loadMany avTyping mvSpecs none false (fun _ => none) { cfgfile := .cfg [("data_vars".toList, .sec [("temp".toList, .sec [("select".toList, .sec [("x".toList, .val (.s "2".toList))])])])] }) = none ∧
    mvLeaves (loadMany avTyping mvSpecs none false (fun _ => none) { cfgfile := .cfg [("data_vars".toList, .sec [("temp".toList, .sec [("select".toList, .val (.s "1".toList))])])] }) = none := by
  decide +kernel
/-- an option where `__many__` is a section is not looked at -/
example : (match loadMany avTyping mvSpecs none false (fun _ => none) { cfgfile := .cfg [("data_vars".toList, .sec [("temp".toList, .val (.s "q".toList))])] } with
    | .ok c => leafAt ["data_vars".toList, "temp".toList] (.sec c)
    | .error _ => none) = some (.s "q".toList) := by decide +kernel

mutual
/-- all the paths of a tree -/
def nodesL : List (Str × CT V) → List (List Str)
  | [] => []
  | (k, t) :: rest => (nodesT t).map (k :: ·) ++ nodesL rest
def nodesT : CT V → List (List Str)
  | .val _ => [[]]
  | .sec l => [] :: nodesL l
end

mutual
theorem mem_nodesL (k : Str) (q : List Str) (l : List (Str × CT V)) (h : getT (k :: q) (.sec l) ≠ none) : (k :: q) ∈ nodesL l := by
  match l with
  | [] => simp [getT, lookupS] at h
  | (a, t) :: rest =>
    rw [nodesL, List.mem_append]
    by_cases ha : k = a
    · subst ha
      left
      refine List.mem_map.2 ⟨q, mem_nodesT q t ?_, rfl⟩
      simpa [getT, lookupS] using h
    · right
      refine mem_nodesL k q rest ?_
      simpa [getT, lookupS, ha] using h
theorem mem_nodesT (q : List Str) (t : CT V) (h : getT q t ≠ none) : q ∈ nodesT t := by
  match t, q with
  | .val v, [] => simp [nodesT]
  | .val v, _ :: _ => simp [getT] at h
  | .sec l, [] => simp [nodesT]
  | .sec l, k :: q => rw [nodesT]; exact List.mem_cons_of_mem _ (mem_nodesL k q l h)
end

/-- the kinds of a tree are those of the specifications, where these have one -/
def kindsAgree (specs : List (Str × CT S)) (c : List (Str × CT V)) : Bool :=
  (nodesT (.sec c)).all (fun r => match specAt r (.sec specs) with
    | some t => hasKind t.isSecT (getT r (.sec c))
    | none => true)

theorem manyKinds_of_agree (specs : List (Str × CT S)) (trees : List (List (Str × CT V))) (h : ∀ t ∈ trees, kindsAgree specs t = true)
    (h2 : ∀ t ∈ trees, ∀ t' ∈ trees, Compatible t t') : ManyKinds specs trees := by
  have key : ∀ t ∈ trees, ∀ r b u, kindAt r (.sec t) = some b → specAt r (.sec specs) = some u → b = u.isSecT := by
    intro t ht r b u hb hu
    have hm := mem_nodesT r (.sec t) ((kindAt_ne_none _ _).1 (by rw [hb]; simp))
    have := h t ht
    unfold kindsAgree at this
    rw [List.all_eq_true] at this
    have := this r hm
    rw [hu] at this
    dsimp only at this
    rw [hasKind_iff, hb] at this
    injection this
  refine ⟨fun r b => (∃ u, specAt r (.sec specs) = some u ∧ b = u.isSecT) ∨ ∃ t ∈ trees, kindAt r (.sec t) = some b, ?_, fun r t ht => .inl ⟨t, ht, rfl⟩, fun t ht r b hb => .inr ⟨t, ht, hb⟩⟩
  rintro r b b' (⟨u, hu, rfl⟩ | ⟨t, ht, hb⟩) (⟨u', hu', rfl⟩ | ⟨t', ht', hb'⟩)
  · rw [hu] at hu'; injection hu' with e; rw [e]
  · exact (key t' ht' r _ u hb' hu).symm
  · exact key t ht r _ u' hb hu'
  · exact h2 t ht t' ht' r b b' hb hb'

theorem mvSpecs_wf : WfTree (.sec mvSpecs) := by
  have h0 : ∀ (s : LoadSpec AV) (r : List Str) (l : List (Str × CT (LoadSpec AV))), getT r (.val s) = some (.sec l) → (l.map Prod.fst).Nodup := by
    intro s r l h
    cases r <;> simp [getT] at h
  have h1 : ∀ (l : List (Str × CT (LoadSpec AV))), (l.map Prod.fst).Nodup → (∀ p ∈ l, WfTree p.2) → WfTree (.sec l) := by
    intro l hn hs r l' h
    cases r with
    | nil => simp only [getT, Option.some.injEq, CT.sec.injEq] at h; exact h ▸ hn
    | cons a q =>
      simp only [getT] at h
      cases hl : lookupS a l with
      | none => rw [hl] at h; cases h
      | some t => rw [hl] at h; exact hs (a, t) (mem_of_lookupS _ _ _ hl) q l' h
  refine h1 _ (by decide +kernel) (List.forall_mem_singleton.2 ?_)
  refine h1 _ (by decide +kernel) (List.forall_mem_singleton.2 ?_)
  refine h1 _ (by decide +kernel) (List.forall_mem_cons.2 ⟨h0 _, List.forall_mem_singleton.2 ?_⟩)
  exact h1 _ (by decide +kernel) (List.forall_mem_singleton.2 (h0 _))

theorem mvKinds : ManyKinds mvSpecs (loadTrees (fun _ => none) { cfgfile := .cfg mvCfg }) := by
  have no : ∀ r b, kindAt r (.sec ([] : List (Str × CT AV))) = some b → r = [] ∧ b = true := by
    intro r b h
    cases r with
    | nil => exact ⟨rfl, by simpa [kindAt, getT, eq_comm] using h⟩
    | cons a q => simp [kindAt, getT, lookupS] at h
  have e : loadTrees (fun _ => none) { cfgfile := .cfg mvCfg } = [mvCfg, [], []] := rfl
  rw [e]
  apply manyKinds_of_agree
  · intro t ht
    simp only [List.mem_cons, List.not_mem_nil, or_false] at ht
    rcases ht with rfl | rfl | rfl <;> decide +kernel
  · have root : ∀ t ∈ [mvCfg, [], []], ∀ b, kindAt [] (.sec t) = some b → b = true := by
      intro t _ b h
      simpa [kindAt, getT, eq_comm] using h
    have emp : ∀ t ∈ [mvCfg, [], []], ∀ t' ∈ [mvCfg, [], []], ∀ r b b', kindAt r (.sec t) = some b → kindAt r (.sec t') = some b' → r = [] → b = b' := by
      rintro t ht t' ht' r b b' h h' rfl
      rw [root t ht b h, root t' ht' b' h']
    intro t ht t' ht' r b b' h h'
    have H := emp t ht t' ht' r b b' h h'
    simp only [List.mem_cons, List.not_mem_nil, or_false] at ht ht'
    rcases ht with rfl | rfl | rfl
    · rcases ht' with rfl | rfl | rfl
      · rw [h] at h'; injection h'
      · exact H (no _ _ h').1
      · exact H (no _ _ h').1
    · exact H (no _ _ h).1
    · exact H (no _ _ h).1

/-- the hypotheses of `C168_value` and `C168_default` are met -/
example : ∃ out, loadMany avTyping mvSpecs none false (fun _ => none) { cfgfile := .cfg mvCfg } = .ok out ∧
    leafAt ["data_vars".toList, "temp".toList, "select".toList, "x".toList] (.sec out) = some (.n 2) ∧
    leafAt ["data_vars".toList, "sal".toList, "name".toList] (.sec out) = some (.s "a".toList) := by
  have hok : ∃ out, loadMany avTyping mvSpecs none false (fun _ => none) { cfgfile := .cfg mvCfg } = .ok out := by
    cases h : loadMany avTyping mvSpecs none false (fun _ => none) { cfgfile := .cfg mvCfg } with
    | ok out => exact ⟨out, rfl⟩
    | error e =>
      have : mvLeaves (loadMany avTyping mvSpecs none false (fun _ => none) { cfgfile := .cfg mvCfg }) ≠ none := by decide +kernel
      rw [h] at this
      exact absurd rfl this
  obtain ⟨out, h⟩ := hok
  refine ⟨out, h, ?_, ?_⟩
  · have := C168_value avTyping avTyping_lawful mvSpecs mvSpecs_wf none false (fun _ => none) { cfgfile := .cfg mvCfg } rfl rfl mvKinds out h
      ["data_vars".toList, "temp".toList, "select".toList] "x".toList (by unfold cleanPath; decide +kernel) lvInt (by rfl) (.s "11".toList) (by decide +kernel)
    rw [List.cons_append] at this
    exact this
  · have := C168_default avTyping avTyping_lawful mvSpecs mvSpecs_wf none false (fun _ => none) { cfgfile := .cfg mvCfg } rfl rfl mvKinds out h
      ["data_vars".toList, "sal".toList] "name".toList (by unfold cleanPath; decide +kernel) lvStr (by rfl) (by decide +kernel) (by
        intro p hp
        have : manyParts (["data_vars".toList, "sal".toList] ++ ["name".toList]) (.sec mvSpecs) = [["data_vars".toList, "sal".toList]] := by decide +kernel
        rw [this, List.mem_singleton] at hp
        subst hp
        exact .inl (by decide +kernel))
    exact this

theorem mem_namesT (q : List Str) (t : CT S) (l : List (Str × CT S)) (k : Str) (u : CT S) (h : specAt q t = some (.sec l)) (hl : lookupS k l = some u) :
    ∃ p ∈ nodesT t, k ∈ p := by
  have up : ∀ (a : Str) (l0 : List (Str × CT S)) (w : CT S), (a, w) ∈ l0 → (∃ p ∈ nodesT w, k ∈ p) → ∃ p ∈ nodesL l0, k ∈ p := by
    intro a l0 w hm ⟨p, hp, hk⟩
    induction l0 with
    | nil => cases hm
    | cons x l0 ih =>
      obtain ⟨b, y⟩ := x
      rw [nodesL]
      rcases List.mem_cons.1 hm with e | e
      · cases e
        exact ⟨a :: p, List.mem_append.2 (.inl (List.mem_map.2 ⟨p, hp, rfl⟩)), List.mem_cons_of_mem _ hk⟩
      · obtain ⟨p', h1, h2⟩ := ih e
        exact ⟨p', List.mem_append.2 (.inr h1), h2⟩
  induction q generalizing t with
  | nil =>
    simp only [specAt, Option.some.injEq] at h
    subst h
    have := mem_nodesT [k] (.sec l) (by simp [getT, hl])
    exact ⟨[k], this, by simp⟩
  | cons a q ih =>
    cases t with
    | val s => simp [specAt] at h
    | sec l0 =>
      simp only [specAt] at h
      cases e1 : specFor a l0 with
      | none => rw [e1] at h; cases h
      | some w =>
        rw [e1] at h
        have hm : ∃ b, (b, w) ∈ l0 := by
          unfold specFor at e1
          split at e1
          · cases e1
          · cases hlk : lookupS a l0 with
            | some t2 => rw [hlk] at e1; injection e1 with e1; subst e1; exact ⟨a, mem_of_lookupS _ _ _ hlk⟩
            | none => rw [hlk] at e1; exact ⟨_, mem_of_lookupS _ _ _ e1⟩
        obtain ⟨b, hb⟩ := hm
        obtain ⟨p, hp, hk⟩ := up b l0 w hb (ih w h)
        exact ⟨p, by rw [nodesT]; exact List.mem_cons_of_mem _ hp, hk⟩

def mvCfg2 : List (Str × CT AV) :=
  [("data_vars".toList, .sec [("temp".toList, .sec [("name".toList, .val (.s "t".toList)), ("select".toList, .sec [("x".toList, .val (.s "2".toList))])])])]

/-- the hypotheses of `C168_accepts_iff` are met: `2` is refused -/
example : ¬ ∃ out, loadMany avTyping mvSpecs none false (fun _ => none) { cfgfile := .cfg mvCfg2 } = .ok out := by
  have e : loadTrees (fun _ => none) { cfgfile := .cfg mvCfg2 } = [mvCfg2, [], []] := rfl
  have no : ∀ r b, kindAt r (.sec ([] : List (Str × CT AV))) = some b → r = [] ∧ b = true := by
    intro r b h
    cases r with
    | nil => exact ⟨rfl, by simpa [kindAt, getT, eq_comm] using h⟩
    | cons a q => simp [kindAt, getT, lookupS] at h
  have hk : ManyKinds mvSpecs (loadTrees (fun _ => none) { cfgfile := .cfg mvCfg2 }) := by
    rw [e]
    apply manyKinds_of_agree
    · intro t ht
      simp only [List.mem_cons, List.not_mem_nil, or_false] at ht
      rcases ht with rfl | rfl | rfl <;> decide +kernel
    · have root : ∀ (t : List (Str × CT AV)) (b : Bool), kindAt [] (.sec t) = some b → b = true := by
        intro t b h
        simpa [kindAt, getT, eq_comm] using h
      intro t ht t' ht' r b b' h h'
      have H : r = [] → b = b' := by
        rintro rfl
        rw [root t b h, root t' b' h']
      simp only [List.mem_cons, List.not_mem_nil, or_false] at ht ht'
      rcases ht with rfl | rfl | rfl
      · rcases ht' with rfl | rfl | rfl
        · rw [h] at h'; injection h'
        · exact H (no _ _ h').1
        · exact H (no _ _ h').1
      · exact H (no _ _ h).1
      · exact H (no _ _ h).1
  have hcl : ∀ t ∈ loadTrees (fun _ => none) { cfgfile := .cfg mvCfg2 }, CleanTree t := by
    rw [e]
    intro t ht path key h
    simp only [List.mem_cons, List.not_mem_nil, or_false] at ht
    have h0 : ¬ leafAt (path ++ [key]) (.sec ([] : List (Str × CT AV))) ≠ none := by rw [leafAt_nil_cfg]; simp
    rcases ht with rfl | rfl | rfl
    · obtain ⟨v, hv⟩ := Option.ne_none_iff_exists'.1 h
      have hm := mem_leaves path key v [] _ hv
      have all : ∀ x ∈ leavesL [] mvCfg2, x.1.map stripU = x.1 := by decide +kernel
      exact all _ hm
    · exact absurd h h0
    · exact absurd h h0
  have hne : ∀ t ∈ loadTrees (fun _ => none) { cfgfile := .cfg mvCfg2 }, NoEmptySections t := by
    rw [e]
    intro t ht p hp h
    simp only [List.mem_cons, List.not_mem_nil, or_false] at ht
    rcases ht with rfl | rfl | rfl
    · refine ⟨["data_vars".toList, "temp".toList, "select".toList], "x".toList, ?_, by decide +kernel⟩
      have hm := mem_nodesT p (.sec mvCfg2) ((kindAt_ne_none _ _).1 (by rw [h]; simp))
      have all : ∀ x ∈ nodesT (.sec mvCfg2), kindAt x (.sec mvCfg2) = some true → x <+: ["data_vars".toList, "temp".toList, "select".toList] := by decide +kernel
      exact all p hm h
    · exact absurd (no _ _ h).1 hp
    · exact absurd (no _ _ h).1 hp
  rw [C168_accepts_iff avTyping avTyping_lawful mvSpecs mvSpecs_wf none false (fun _ => none) { cfgfile := .cfg mvCfg2 } rfl rfl hk hcl hne (by
    intro q l k t h1 h2 h3
    obtain ⟨p, hp, hkp⟩ := mem_namesT q _ l k t h1 h2
    have all : ∀ x ∈ nodesT (.sec mvSpecs), ∀ y ∈ x, y ≠ manyKey → stripU y = y := by decide +kernel
    exact all p hp k hkp h3)]
  intro H
  exact (H ["data_vars".toList, "temp".toList, "select".toList] "x".toList lvInt (by rfl)).1 (.s "2".toList) (by decide +kernel) (by decide +kernel)

end Xoa
