import Verif.CfInheritLemmas

/-!
# C45: inheritance of specifications

Specification: what a specification contains after loading, in terms of what the configuration says
for it and of what its parent contains after loading.
-/

namespace Xoa

/-! ## Specification -/

/-- nothing is set -/
inductive UnsetF : FV → Prop
  | none : UnsetF .none
  | str : UnsetF (.str [])
  | list : UnsetF (.list [])
  | other (i : Nat) : UnsetF (.other false i)

/-- nothing is set -/
inductive UnsetS : SV → Prop
  | flat (v : FV) (h : UnsetF v) : UnsetS (.flat v)
  | dict : UnsetS (.dict [])

/-- `final` is what a child that says `own` gets from a parent that has `parent` -/
structure InheritsF (own parent final : Option FV) : Prop where
  noParent : parent = none → final = own
  missing : own = none → final = parent
  unset : ∀ w v, own = some w → parent = some v → UnsetF w → final = some v
  lists : ∀ a b, own = some (.list a) → parent = some (.list b) → final = some (.list (a ++ b))
  keep : ∀ w, own = some w → ¬ UnsetF w → (∀ a, w ≠ .list a) → final = own

/-- the same for the keys of an entry, whose dictionaries are merged -/
structure InheritsS (own parent final : Option SV) : Prop where
  noParent : parent = none → final = own
  missing : own = none → final = parent
  unset : ∀ w v, own = some w → parent = some v → UnsetS w → final = some v
  flat : ∀ a b, own = some (.flat a) → parent = some (.flat b) → ∃ c, final = some (.flat c) ∧ InheritsF (some a) (some b) (some c)
  dicts : ∀ a b, own = some (.dict a) → parent = some (.dict b) →
    ∃ c, final = some (.dict c) ∧ ∀ f, InheritsF (lookupS f a) (lookupS f b) (lookupS f c)

/-- What the configuration says for a name, completed by a long name: when it has no long name, one
is made with its first standard name or with its name. -/
structure OwnEntry (name : Str) (raw own : CfEntry) : Prop where
  keys : ∀ f, f ≠ kAttrs → lookupS f own = lookupS f raw
  attrs : ∃ a b l, lookupS kAttrs raw = some (.dict a) ∧ lookupS kAttrs own = some (.dict b) ∧
    (∀ f, f ≠ kLong → lookupS f b = lookupS f a) ∧ lookupS kLong a = some (.list l) ∧
    (l ≠ [] → lookupS kLong b = some (.list l)) ∧
    (l = [] → ∃ sn : List Str, lookupS kStd a = some (.list sn) ∧
      lookupS kLong b = some (.list [capitalize (replaceC '_' ' ' (sn.headD name))]))

/-- the parent named by an entry -/
def Inherits (D : CfEnts) (k p : CfKey) : Prop :=
  ∃ e s, lookupE k D = some e ∧ lookupS kInherit e = some (.flat (.str s)) ∧ s ≠ [] ∧ p = parseInherit k.1 s

/-- a configuration as the validation leaves it, without dangling inheritance -/
structure WfCfg (c : CfCfg) : Prop where
  entries : ∀ k e, lookupE k c.ents = some e → WfEntry c.dims k.1 e
  parents : ∀ k p, Inherits c.ents k p → lookupE p c.ents ≠ none

/-- the inheritance graph has no cycle -/
def Acyclic (D : CfEnts) : Prop := ∃ rank : CfKey → Nat, ∀ k p, Inherits D k p → rank p < rank k

/-! ## merge -/

theorem unsetF_iff (v : FV) : UnsetF v ↔ v.truthy = false := by
  constructor
  · rintro (_ | _ | _ | i) <;> rfl
  · intro h
    cases v with
    | none => exact .none
    | str s => cases s with
      | nil => exact .str
      | cons => simp [FV.truthy] at h
    | list s => cases s with
      | nil => exact .list
      | cons => simp [FV.truthy] at h
    | other t i => simp only [FV.truthy] at h; subst h; exact .other i

theorem unsetS_iff (v : SV) : UnsetS v ↔ v.truthy = false := by
  constructor
  · rintro (⟨v, h⟩ | _)
    · exact (unsetF_iff v).1 h
    · rfl
  · intro h
    cases v with
    | flat v => exact .flat v ((unsetF_iff v).2 h)
    | dict d => cases d with
      | nil => exact .dict
      | cons => simp [SV.truthy] at h

theorem mergedF_inherits (a b : Option FV) : InheritsF a b (mergedOpt mergeFV a b) := by
  refine ⟨?_, ?_, ?_, ?_, ?_⟩
  · rintro rfl; cases a <;> rfl
  · rintro rfl; rfl
  · rintro w v rfl rfl hu; simp [mergedOpt, mergeFV, (unsetF_iff w).1 hu]
  · rintro l m rfl rfl
    cases l <;> simp [mergedOpt, mergeFV, FV.truthy]
  · rintro w rfl hu hl
    have ht : w.truthy = true := by
      by_contra h; exact hu ((unsetF_iff w).2 (by simpa using h))
    cases b with
    | none => rfl
    | some v =>
      cases w with
      | list a => exact absurd rfl (hl a)
      | none => simp [mergedOpt, mergeFV]; simp [FV.truthy] at ht
      | str s => simp [mergedOpt, mergeFV, ht]
      | other t i => simp [mergedOpt, mergeFV, ht]

theorem mergedS_inherits (a b : Option SV) (hb : ∀ d, b = some (.dict d) → (d.map (·.1)).Nodup) :
    InheritsS a b (mergedOpt mergeSV a b) := by
  refine ⟨?_, ?_, ?_, ?_, ?_⟩
  · rintro rfl; cases a <;> rfl
  · rintro rfl; rfl
  · rintro w v rfl rfl hu; simp [mergedOpt, mergeSV, (unsetS_iff w).1 hu]
  · rintro l m rfl rfl
    refine ⟨mergeFV l m, ?_, mergedF_inherits (some l) (some m)⟩
    simp only [mergedOpt, mergeSV]
    by_cases h : (SV.flat l).truthy = false
    · rw [if_pos h]
      have : l.truthy = false := h
      simp [mergeFV, this]
    · rw [if_neg h]
  · rintro l m rfl rfl
    refine ⟨mergeF l m, ?_, ?_⟩
    · simp only [mergedOpt, mergeSV]
      cases l with
      | cons => simp [SV.truthy]
      | nil =>
        simp only [SV.truthy, List.isEmpty_nil, Bool.not_true, if_true, Option.some.injEq, SV.dict.injEq]
        have hn := hb m rfl
        have key : ∀ (m acc : List (Str × FV)), ((acc ++ m).map (·.1)).Nodup → mergeF acc m = acc ++ m := by
          intro m
          induction m with
          | nil => intro acc _; simp [mergeF]
          | cons p m ih =>
            intro acc hn
            obtain ⟨k, v⟩ := p
            have hk : lookupS k acc = none := by
              apply lookupS_none_of_notMem
              intro hm
              rw [List.map_append, List.nodup_append] at hn
              exact hn.2.2 k hm k (by simp) rfl
            have hs : ∀ acc : List (Str × FV), lookupS k acc = none → setS k v acc = acc ++ [(k, v)] := by
              intro acc
              induction acc with
              | nil => intro _; rfl
              | cons q acc ih2 =>
                obtain ⟨a, b⟩ := q
                intro h
                simp only [lookupS] at h
                split at h
                · simp at h
                · next hne => simp [setS, hne, ih2 h]
            have h1 : mergeF acc ((k, v) :: m) = mergeF (acc ++ [(k, v)]) m := by
              simp only [mergeF, List.foldl_cons, mergeItemF, hk, hs acc hk]
            rw [h1, ih]
            · simp
            · simpa using hn
        exact (key m [] (by simpa using hn)).symm
    · intro f
      rw [lookup_mergeF _ _ (hb m rfl)]
      exact mergedF_inherits _ _

/-! ## resolution -/

/-- the processed entries -/
inductive Res (R : CfEnts) : CfKey → CfEntry → Prop
  | root (k : CfKey) (e0 e : CfEntry) : lookupE k R = some e0 → prepEntry k.2 e0 = .ok e → inheritText e = .ok none → Res R k (markDone e)
  | child (k : CfKey) (e0 e : CfEntry) (txt : Str) (pe : CfEntry) : lookupE k R = some e0 → prepEntry k.2 e0 = .ok e →
      inheritText e = .ok (some txt) → Res R (parseInherit k.1 txt) pe → Res R k (markDone (inheritFrom k (parseInherit k.1 txt) e pe))

theorem Res.known {R : CfEnts} {k : CfKey} {e : CfEntry} (h : Res R k e) : lookupE k R ≠ none := by
  cases h with
  | root _ e0 _ h1 => rw [h1]; simp
  | child _ e0 _ _ _ h1 => rw [h1]; simp

theorem Res.det (R : CfEnts) (k : CfKey) (e e' : CfEntry) (h : Res R k e) (h' : Res R k e') : e = e' := by
  induction h generalizing e' with
  | root k e0 e h1 h2 h3 =>
    cases h' with
    | root _ e0' e'' h1' h2' h3' =>
      rw [h1] at h1'; injection h1' with h1'; subst h1'
      rw [h2] at h2'; injection h2' with h2'; subst h2'; rfl
    | child _ e0' e'' txt pe h1' h2' h3' h4' =>
      rw [h1] at h1'; injection h1' with h1'; subst h1'
      rw [h2] at h2'; injection h2' with h2'; subst h2'
      rw [h3] at h3'; simp at h3'
  | child k e0 e txt pe h1 h2 h3 h4 ih =>
    cases h' with
    | root _ e0' e'' h1' h2' h3' =>
      rw [h1] at h1'; injection h1' with h1'; subst h1'
      rw [h2] at h2'; injection h2' with h2'; subst h2'
      rw [h3] at h3'; simp at h3'
    | child _ e0' e'' txt' pe' h1' h2' h3' h4' =>
      rw [h1] at h1'; injection h1' with h1'; subst h1'
      rw [h2] at h2'; injection h2' with h2'; subst h2'
      rw [h3] at h3'; injection h3' with h3'; injection h3' with h3'; subst h3'
      rw [ih _ h4']

theorem Res.done (c : CfCfg) (hw : WfCfg c) (k : CfKey) (e : CfEntry) (h : Res c.ents k e) : DoneEntry c.dims k.1 e := by
  induction h with
  | root k e0 e h1 h2 h3 =>
    obtain ⟨e', b1, b2, b3, -⟩ := prep_ok c.dims k.1 k.2 e0 (hw.entries k e0 h1)
    rw [h2] at b1; injection b1 with b1; subst b1
    exact done_root _ _ _ b2 b3 h3
  | child k e0 e txt pe h1 h2 h3 h4 ih =>
    obtain ⟨e', b1, b2, b3, -⟩ := prep_ok c.dims k.1 k.2 e0 (hw.entries k e0 h1)
    rw [h2] at b1; injection b1 with b1; subst b1
    exact done_child _ _ _ _ _ b2 b3 ih

theorem inherits_of_text (D : CfEnts) (k : CfKey) (e : CfEntry) (txt : Str) (h : lookupE k D = some e)
    (ht : inheritText e = .ok (some txt)) : Inherits D k (parseInherit k.1 txt) := by
  unfold inheritText at ht
  cases hl : lookupS kInherit e with
  | none => rw [hl] at ht; simp at ht
  | some v =>
    rw [hl] at ht
    dsimp only at ht
    cases hv : v.truthy with
    | false => rw [hv] at ht; simp at ht
    | true =>
      rw [hv] at ht
      simp only [Bool.true_eq_false, if_false] at ht
      match v, hl, hv, ht with
      | .flat (.str s), hl, hv, ht =>
        simp only [Except.ok.injEq, Option.some.injEq] at ht
        subst ht
        refine ⟨e, s, h, hl, ?_, rfl⟩
        rintro rfl; simp [SV.truthy, FV.truthy] at hv
      | .flat .none, _, _, ht => simp at ht
      | .flat (.list _), _, _, ht => simp at ht
      | .flat (.other _ _), _, _, ht => simp at ht
      | .dict _, _, _, ht => simp at ht

theorem text_of_inherit (e : CfEntry) (s : Str) (h : lookupS kInherit e = some (.flat (.str s))) (hs : s ≠ []) :
    inheritText e = .ok (some s) := by
  cases s with
  | nil => exact absurd rfl hs
  | cons c s => simp [inheritText, h, SV.truthy, FV.truthy]

/-! ## processing -/

/-- the entry is as in the configuration or processed -/
def OkAt (R D : CfEnts) (j : CfKey) : Prop := lookupE j D = lookupE j R ∨ ∃ e, Res R j e ∧ lookupE j D = some e

theorem process_done (dims : CfDims) (n : Nat) (D : CfEnts) (k : CfKey) (e : CfEntry) (h : lookupE k D = some e) (hd : DoneEntry dims k.1 e) :
    processEntry (n + 1) D k = .ok (D, [(k, e)]) := by
  simp only [processEntry, h, hd.long, Except.bind, hd.noInherit, hd.marked]
  rw [setE_same k e D h, setE_same k e D h]

theorem process_ok (c : CfCfg) (hw : WfCfg c) (rank : CfKey → Nat) (hr : ∀ k p, Inherits c.ents k p → rank p < rank k) :
    ∀ (n : Nat) (D : CfEnts) (k : CfKey), rank k < n → lookupE k c.ents ≠ none → (∀ j, rank j ≤ rank k → OkAt c.ents D j) →
    ∃ D' ys, processEntry n D k = .ok (D', ys) ∧ (∀ j, OkAt c.ents D j → OkAt c.ents D' j) ∧
      (∃ e, Res c.ents k e ∧ lookupE k D' = some e ∧ (k, e) ∈ ys) ∧ (∀ j e, (j, e) ∈ ys → Res c.ents j e) ∧
      D'.map (·.1) = D.map (·.1) ∧ (∀ j, rank k < rank j → lookupE j D' = lookupE j D) := by
  intro n
  induction n with
  | zero => intro D k h; omega
  | succ n ih =>
    intro D k hk hne hok
    have hdone : ∀ e, Res c.ents k e → lookupE k D = some e → ∃ D' ys, processEntry (n + 1) D k = .ok (D', ys) ∧ (∀ j, OkAt c.ents D j → OkAt c.ents D' j) ∧
      (∃ e, Res c.ents k e ∧ lookupE k D' = some e ∧ (k, e) ∈ ys) ∧ (∀ j e, (j, e) ∈ ys → Res c.ents j e) ∧
      D'.map (·.1) = D.map (·.1) ∧ (∀ j, rank k < rank j → lookupE j D' = lookupE j D) := by
      intro e he hl
      refine ⟨D, [(k, e)], process_done c.dims n D k e hl (he.done c hw), fun _ h => h, ⟨e, he, hl, by simp⟩, ?_, rfl, fun _ _ => rfl⟩
      intro j e' hm
      simp only [List.mem_singleton, Prod.mk.injEq] at hm
      rw [hm.1, hm.2]; exact he
    rcases hok k (Nat.le_refl _) with h | ⟨e, he, hl⟩
    · cases h0 : lookupE k c.ents with
      | none => exact absurd h0 hne
      | some e0 =>
        rw [h0] at h
        obtain ⟨e, b1, b2, b3, b4, -⟩ := prep_ok c.dims k.1 k.2 e0 (hw.entries k e0 h0)
        obtain ⟨t, ht⟩ := inheritText_wf _ _ _ b2
        cases t with
        | none =>
          refine ⟨setE k (markDone e) (setE k e D), [(k, markDone e)], ?_, ?_, ⟨markDone e, .root k e0 e h0 b1 ht, ?_, by simp⟩, ?_, ?_, ?_⟩
          · simp only [processEntry, h, b1, Except.bind, ht]
          · intro j hj
            by_cases hjk : j = k
            · subst hjk; exact Or.inr ⟨markDone e, .root _ e0 e h0 b1 ht, by rw [lookupE_setE]; simp⟩
            · unfold OkAt; rw [lookupE_setE, if_neg hjk, lookupE_setE, if_neg hjk]; exact hj
          · rw [lookupE_setE]; simp
          · intro j e' hm
            simp only [List.mem_singleton, Prod.mk.injEq] at hm
            rw [hm.1, hm.2]; exact .root k e0 e h0 b1 ht
          · rw [setE_keys _ _ _ (by rw [lookupE_setE]; simp), setE_keys _ _ _ (by rw [h]; simp)]
          · intro j hj
            have : j ≠ k := by rintro rfl; omega
            rw [lookupE_setE, if_neg this, lookupE_setE, if_neg this]
        | some txt =>
          have ht0 : inheritText e0 = .ok (some txt) := by
            rw [← inheritText_congr e0 e (b4 _ (by decide))]; exact ht
          have hinh := inherits_of_text c.ents k e0 txt h0 ht0
          have hrk := hr _ _ hinh
          have hpk : parseInherit k.1 txt ≠ k := by intro hh; rw [hh] at hrk; omega
          obtain ⟨D2, ys, r1, r2, ⟨pe, r3, r4, r5⟩, r6, r7, r8⟩ := ih (setE k e D) (parseInherit k.1 txt) (by omega) (hw.parents _ _ hinh) (by
            intro j hj
            have : j ≠ k := by rintro rfl; omega
            unfold OkAt
            rw [lookupE_setE, if_neg this]
            exact hok j (by omega))
          have hres : Res c.ents k (markDone (inheritFrom k (parseInherit k.1 txt) e pe)) := .child k e0 e txt pe h0 b1 ht r3
          refine ⟨setE k (markDone (inheritFrom k (parseInherit k.1 txt) e pe)) D2, ys ++ [(k, markDone (inheritFrom k (parseInherit k.1 txt) e pe))], ?_, ?_, ⟨_, hres, ?_, by simp⟩, ?_, ?_, ?_⟩
          · simp only [processEntry, h, b1, Except.bind, ht, if_neg hpk, r1, r4]
          · intro j hj
            by_cases hjk : j = k
            · subst hjk; exact Or.inr ⟨_, hres, by rw [lookupE_setE]; simp⟩
            · have := r2 j (by unfold OkAt; rw [lookupE_setE, if_neg hjk]; exact hj)
              unfold OkAt; rw [lookupE_setE, if_neg hjk]; exact this
          · rw [lookupE_setE]; simp
          · intro j e' hm
            simp only [List.mem_append, List.mem_singleton, Prod.mk.injEq] at hm
            rcases hm with hm | hm
            · exact r6 j e' hm
            · rw [hm.1, hm.2]; exact hres
          · have h2 : lookupE k D2 ≠ none := by rw [r8 k hrk, lookupE_setE]; simp
            rw [setE_keys _ _ _ h2, r7, setE_keys _ _ _ (by rw [h]; simp)]
          · intro j hj
            have : j ≠ k := by rintro rfl; omega
            rw [lookupE_setE, if_neg this, r8 j (by omega), lookupE_setE, if_neg this]
    · exact hdone e he hl

theorem processAll_ok (c : CfCfg) (hw : WfCfg c) (rank : CfKey → Nat) (hr : ∀ k p, Inherits c.ents k p → rank p < rank k)
    (n : Nat) (ks : List CfKey) (D : CfEnts) (hks : ∀ k ∈ ks, rank k < n ∧ lookupE k c.ents ≠ none) (hok : ∀ j, OkAt c.ents D j) :
    ∃ D' ys, processAll n D ks = .ok (D', ys) ∧ (∀ j, OkAt c.ents D' j) ∧ (∀ k ∈ ks, ∃ e, (k, e) ∈ ys) ∧
      (∀ j e, (j, e) ∈ ys → Res c.ents j e) ∧ D'.map (·.1) = D.map (·.1) := by
  induction ks generalizing D with
  | nil => exact ⟨D, [], rfl, hok, by simp, by simp, rfl⟩
  | cons k ks ih =>
    obtain ⟨D1, ys, r1, r2, ⟨e, r3, r4, r5⟩, r6, r7, -⟩ := process_ok c hw rank hr n D k (hks k (by simp)).1 (hks k (by simp)).2 (fun j _ => hok j)
    obtain ⟨D2, ys2, s1, s2, s3, s4, s5⟩ := ih D1 (fun k hk => hks k (List.mem_cons_of_mem _ hk)) (fun j => r2 j (hok j))
    refine ⟨D2, ys ++ ys2, ?_, s2, ?_, ?_, s5.trans r7⟩
    · simp only [processAll, r1, Except.bind, s1]
    · intro k' hk'
      rcases List.mem_cons.1 hk' with rfl | hk'
      · exact ⟨e, List.mem_append_left _ r5⟩
      · obtain ⟨e', he'⟩ := s3 k' hk'; exact ⟨e', List.mem_append_right _ he'⟩
    · intro j e' hm
      rcases List.mem_append.1 hm with hm | hm
      · exact r6 j e' hm
      · exact s4 j e' hm

/-! ## refilling -/

theorem mem_setE (k : CfKey) (v : CfEntry) (d : CfEnts) (p : CfKey × CfEntry) (h : p ∈ setE k v d) : p = (k, v) ∨ p ∈ d := by
  induction d with
  | nil => simp [setE] at h; exact Or.inl h
  | cons q d ih =>
    obtain ⟨a, b⟩ := q
    simp only [setE] at h
    split at h
    · rcases List.mem_cons.1 h with h | h
      · exact Or.inl h
      · exact Or.inr (List.mem_cons_of_mem _ h)
    · rcases List.mem_cons.1 h with h | h
      · exact Or.inr (by simp [h])
      · exact (ih h).imp id (List.mem_cons_of_mem _)

theorem setE_nodup (k : CfKey) (v : CfEntry) (d : CfEnts) (hn : (d.map (·.1)).Nodup) : ((setE k v d).map (·.1)).Nodup := by
  induction d with
  | nil => simp [setE]
  | cons p d ih =>
    obtain ⟨a, b⟩ := p
    simp only [List.map_cons, List.nodup_cons] at hn
    simp only [setE]
    by_cases e : k = a
    · subst e; simp [hn.1, hn.2]
    · rw [if_neg e]
      simp only [List.map_cons, List.nodup_cons]
      refine ⟨?_, ih hn.2⟩
      intro hm
      have := lookupE_of_mem_keys a _ hm
      rw [lookupE_setE, if_neg (fun h => e h.symm)] at this
      exact hn.1 (mem_keys_of_lookupE a d this)

theorem refill_aux (items d : CfEnts) (hn : (d.map (·.1)).Nodup) :
    (((items.foldl (fun d p => setE p.1 p.2 d) d)).map (·.1)).Nodup ∧
    (∀ p ∈ items.foldl (fun d p => setE p.1 p.2 d) d, p ∈ items ∨ p ∈ d) ∧
    (∀ k, (k ∈ items.map (·.1) ∨ lookupE k d ≠ none) → lookupE k (items.foldl (fun d p => setE p.1 p.2 d) d) ≠ none) := by
  induction items generalizing d with
  | nil => exact ⟨hn, fun p h => Or.inr h, fun k h => by simpa using h⟩
  | cons q items ih =>
    obtain ⟨h1, h2, h3⟩ := ih (setE q.1 q.2 d) (setE_nodup _ _ _ hn)
    rw [List.foldl_cons]
    refine ⟨h1, ?_, ?_⟩
    · intro p hp
      rcases h2 p hp with h | h
      · exact Or.inl (List.mem_cons_of_mem _ h)
      · rcases mem_setE _ _ _ _ h with h | h
        · exact Or.inl (by simp [h])
        · exact Or.inr h
    · intro k hk
      apply h3
      rw [lookupE_setE]
      by_cases e : k = q.1
      · right; simp [e]
      · simp only [List.map_cons, List.mem_cons, e, false_or, if_false] at hk ⊢; exact hk

theorem lookupE_append (k : CfKey) (a b : CfEnts) : lookupE k (a ++ b) = (lookupE k a).or (lookupE k b) := by
  induction a with
  | nil => simp [lookupE]
  | cons p a ih =>
    obtain ⟨x, y⟩ := p
    simp only [List.cons_append, lookupE]
    split <;> simp [ih]

/-! ## dimensions -/

/-- the names that a coordinate adds to the dimensions of type `t`: its name and its other names when
its axis is `t` -/
def dimsOfEntry (t : Str) (k : CfKey) (e : CfEntry) : List Str :=
  if k.1 = cCoords then
    match lookupS kAttrs e, lookupS kName e with
    | some (.dict a), some (.flat (.list l)) => match lookupS kAxis a with
      | some (.str s) => if s ≠ [] ∧ lower s = t then k.2 :: l else []
      | _ => []
    | _, _ => []
  else []

/-- the names that all the coordinates add to the dimensions of type `t`, in order -/
def dimsOfEnts (t : Str) (D : CfEnts) : List Str := D.flatMap (fun p => dimsOfEntry t p.1 p.2)

theorem addDims_ok (dims0 dims : CfDims) (k : CfKey) (e : CfEntry) (hk : k.1 = cCoords) (h : WfEntry dims0 k.1 e)
    (hd : ∀ t, lookupS t dims0 ≠ none → lookupS t dims ≠ none) :
    ∃ d', addDims k.2 e dims = .ok d' ∧ ∀ t, lookupS t d' = (lookupS t dims).map (· ++ dimsOfEntry t k e) := by
  obtain ⟨a, ha, hna, -, -, hax, hax2⟩ := h.attrs
  obtain ⟨l, hl⟩ := h.names
  cases h1 : lookupS kAxis a with
  | none => exact absurd h1 (hax hk)
  | some v =>
    rcases hax2 v h1 with rfl | ⟨s, rfl, hs⟩
    · refine ⟨dims, by simp [addDims, pyAttrs, pyItem, ha, h1, Except.bind, FV.truthy], ?_⟩
      intro t; simp [dimsOfEntry, hk, ha, hl, h1]
    · cases s with
      | nil =>
        refine ⟨dims, by simp [addDims, pyAttrs, pyItem, ha, h1, Except.bind, FV.truthy], ?_⟩
        intro t; simp [dimsOfEntry, hk, ha, hl, h1]
      | cons x s =>
        cases h2 : lookupS (lower (x :: s)) dims with
        | none => exact absurd h2 (hd _ (hs (by simp)))
        | some old =>
          refine ⟨setS (lower (x :: s)) (old ++ (k.2 :: l)) dims, by simp [addDims, pyAttrs, pyItem, ha, hl, h1, h2, Except.bind, FV.truthy], ?_⟩
          intro t
          rw [lookupS_setS]
          by_cases ht : t = lower (x :: s)
          · rw [if_pos ht, ht, h2]; simp [dimsOfEntry, hk, ha, hl, h1]
          · rw [if_neg ht]
            have : ¬ (lower (x :: s) = t) := fun e => ht e.symm
            simp [dimsOfEntry, hk, ha, hl, h1, this]

theorem updateDims_ok (dims0 : CfDims) (D : CfEnts) (hD : ∀ p ∈ D, WfEntry dims0 p.1.1 p.2) (dims : CfDims)
    (hd : ∀ t, lookupS t dims0 ≠ none → lookupS t dims ≠ none) :
    ∃ d', updateDims D dims = .ok d' ∧ ∀ t, lookupS t d' = (lookupS t dims).map (· ++ dimsOfEnts t D) := by
  induction D generalizing dims with
  | nil => exact ⟨dims, rfl, fun t => by simp [dimsOfEnts]⟩
  | cons p D ih =>
    obtain ⟨k, e⟩ := p
    by_cases hk : k.1 = cCoords
    · obtain ⟨d1, h1, h2⟩ := addDims_ok dims0 dims k e hk (hD (k, e) (by simp)) hd
      obtain ⟨d2, h3, h4⟩ := ih (fun p hp => hD p (List.mem_cons_of_mem _ hp)) d1 (by
        intro t ht
        rw [h2 t]
        have := hd t ht
        cases hh : lookupS t dims with
        | none => exact absurd hh this
        | some x => simp)
      refine ⟨d2, by simp only [updateDims, if_pos hk, h1, Except.bind, h3], ?_⟩
      intro t
      rw [h4, h2]
      cases lookupS t dims <;> simp [dimsOfEnts, List.append_assoc]
    · obtain ⟨d2, h3, h4⟩ := ih (fun p hp => hD p (List.mem_cons_of_mem _ hp)) dims hd
      refine ⟨d2, by simp only [updateDims, if_neg hk, h3], ?_⟩
      intro t
      rw [h4]
      have : dimsOfEntry t k e = [] := by simp [dimsOfEntry, hk]
      simp [dimsOfEnts, this]

/-! ## the whole loading -/

theorem rank_bound (rank : CfKey → Nat) (l : List CfKey) : ∃ N, ∀ k ∈ l, rank k < N := by
  induction l with
  | nil => exact ⟨0, by simp⟩
  | cons a l ih =>
    obtain ⟨N, h⟩ := ih
    refine ⟨max N (rank a + 1), ?_⟩
    intro k hk
    rcases List.mem_cons.1 hk with rfl | hk
    · omega
    · have := h k hk; omega

theorem mem_keysOf (cat : Str) (D : CfEnts) (k : CfKey) : k ∈ keysOf cat D ↔ k ∈ D.map (·.1) ∧ k.1 = cat := by
  simp [keysOf]

theorem postProcess_ok (c : CfCfg) (hw : WfCfg c) (rank : CfKey → Nat) (hr : ∀ k p, Inherits c.ents k p → rank p < rank k)
    (n : Nat) (hn : ∀ k ∈ c.ents.map (·.1), rank k < n) :
    ∃ c', postProcess n c = .ok c' ∧ (∀ k, lookupE k c'.ents = none ↔ lookupE k c.ents = none) ∧
      (∀ p ∈ c'.ents, Res c.ents p.1 p.2) ∧ (c'.ents.map (·.1)).Nodup ∧
      (∃ A B, c'.ents = A ++ B ∧ (∀ p ∈ A, p.1.1 = cVars) ∧ (∀ p ∈ B, p.1.1 = cCoords)) ∧
      (∀ t, lookupS t c'.dims = (lookupS t c.dims).map (· ++ dimsOfEnts t c'.ents)) := by
  obtain ⟨D1, y1, r1, r2, r3, r4, r5⟩ := processAll_ok c hw rank hr n (keysOf cVars c.ents) c.ents (by
    intro k hk
    rw [mem_keysOf] at hk
    exact ⟨hn k hk.1, lookupE_of_mem_keys _ _ hk.1⟩) (fun j => Or.inl rfl)
  obtain ⟨D2, y2, s1, s2, s3, s4, s5⟩ := processAll_ok c hw rank hr n (keysOf cCoords D1) D1 (by
    intro k hk
    rw [mem_keysOf, r5] at hk
    exact ⟨hn k hk.1, lookupE_of_mem_keys _ _ hk.1⟩) r2
  have hy : ∀ j e, (j, e) ∈ y1 ++ y2 → Res c.ents j e := by
    intro j e h
    rcases List.mem_append.1 h with h | h
    · exact r4 j e h
    · exact s4 j e h
  let IA := (y1 ++ y2).filter (fun p => p.1.1 = cVars)
  let IB := (y1 ++ y2).filter (fun p => p.1.1 = cCoords)
  obtain ⟨a1, a2, a3⟩ := refill_aux IA [] (by simp)
  obtain ⟨b1, b2, b3⟩ := refill_aux IB [] (by simp)
  have hA : ∀ p ∈ refill IA, p ∈ y1 ++ y2 ∧ p.1.1 = cVars := by
    intro p hp
    have := (a2 p hp).resolve_right (by simp)
    have := List.mem_filter.1 this
    exact ⟨this.1, by simpa using this.2⟩
  have hB : ∀ p ∈ refill IB, p ∈ y1 ++ y2 ∧ p.1.1 = cCoords := by
    intro p hp
    have := (b2 p hp).resolve_right (by simp)
    have := List.mem_filter.1 this
    exact ⟨this.1, by simpa using this.2⟩
  have hAB : ∀ p ∈ refill IA ++ refill IB, Res c.ents p.1 p.2 := by
    intro p hp
    rcases List.mem_append.1 hp with hp | hp
    · exact hy p.1 p.2 (hA p hp).1
    · exact hy p.1 p.2 (hB p hp).1
  obtain ⟨d', u1, u2⟩ := updateDims_ok c.dims (refill IA ++ refill IB) (fun p hp => ((hAB p hp).done c hw).toWfEntry) c.dims (fun _ h => h)
  refine ⟨⟨refill IA ++ refill IB, d'⟩, ?_, ?_, hAB, ?_, ⟨_, _, rfl, fun p hp => (hA p hp).2, fun p hp => (hB p hp).2⟩, u2⟩
  · show (processAll n c.ents (keysOf cVars c.ents)).bind _ = _
    simp only [r1, Except.bind, s1]
    rw [show (List.filter (fun p => decide (p.1.1 = cVars)) (y1 ++ y2)) = IA from rfl, show (List.filter (fun p => decide (p.1.1 = cCoords)) (y1 ++ y2)) = IB from rfl, u1]
  · intro k
    constructor
    · intro h
      by_contra h0
      have hk := mem_keys_of_lookupE k _ h0
      cases hl : lookupE k c.ents with
      | none => exact h0 hl
      | some e0 =>
        dsimp only at h
        rw [lookupE_append, Option.or_eq_none_iff] at h
        rcases (hw.entries k e0 hl).hcat with hc | hc
        · obtain ⟨e, he⟩ := r3 k (by rw [mem_keysOf]; exact ⟨hk, hc⟩)
          refine a3 k (Or.inl ?_) h.1
          refine List.mem_map.2 ⟨(k, e), ?_, rfl⟩
          simp [IA, he, hc]
        · obtain ⟨e, he⟩ := s3 k (by rw [mem_keysOf, r5]; exact ⟨hk, hc⟩)
          refine b3 k (Or.inl ?_) h.2
          refine List.mem_map.2 ⟨(k, e), ?_, rfl⟩
          simp [IB, he, hc]
    · intro h
      by_contra h0
      cases hl : lookupE k (refill IA ++ refill IB) with
      | none => exact h0 hl
      | some e =>
        exact (hAB _ (mem_of_lookupE _ _ _ hl)).known h
  · dsimp only
    rw [List.map_append, List.nodup_append]
    refine ⟨a1, b1, ?_⟩
    intro x hx y hy' hxy
    subst hxy
    obtain ⟨p, hp, rfl⟩ := List.mem_map.1 hx
    obtain ⟨q, hq, hqe⟩ := List.mem_map.1 hy'
    have := (hA p hp).2
    have h2 := (hB q hq).2
    rw [hqe, this] at h2
    exact absurd h2 (by decide)

/-! ## C45 -/

theorem own_of_prep (dims : CfDims) (cat : Str) (name : Str) (raw own : CfEntry) (hw : WfEntry dims cat raw)
    (h : prepEntry name raw = .ok own) : OwnEntry name raw own := by
  obtain ⟨e, b1, -, -, b4, a, a', l, l', c1, c2, c3, c4, c5, c6, c7, c8⟩ := prep_ok dims cat name raw hw
  rw [h] at b1; injection b1 with b1; subst b1
  refine ⟨b4, a, a', l, c1, c2, c3, c4, ?_, ?_⟩
  · intro hne
    have := c7 hne
    subst this
    rw [c1] at c2; injection c2 with c2; injection c2 with c2; subst c2
    exact c4
  · intro h0
    obtain ⟨sn, d1, d2⟩ := c8 h0
    exact ⟨sn, d1, by rw [c5, d2]⟩

/-- `k` is a coordinate, `p` a data variable and `f` one of the keys that only data variables have -/
def VarOnly (k p : CfKey) (f : Str) : Prop :=
  k.1 = "coords".toList ∧ p.1 = "data_vars".toList ∧ (f = "cmap".toList ∨ f = "squeeze".toList ∨ f = "select".toList)

theorem varOnly_iff (k p : CfKey) (f : Str) (hk : k.1 = cVars ∨ k.1 = cCoords) (hp : p.1 = cVars ∨ p.1 = cCoords) :
    (k.1 ≠ p.1 ∧ f ∉ catKeys k.1 ∧ f ∈ catKeys p.1) ↔ VarOnly k p f := by
  have e1 : cVars ≠ cCoords := by decide
  have kv : catKeys cVars = ["name", "domain", "cmap", "inherit", "squeeze", "search_order", "attrs", "select"].map String.toList := rfl
  have kc : catKeys cCoords = ["name", "domain", "inherit", "search_order", "attrs"].map String.toList := rfl
  have e2 : ("coords".toList : Str) = cCoords := rfl
  have e3 : ("data_vars".toList : Str) = cVars := rfl
  unfold VarOnly
  rw [e2, e3]
  rcases hk with hk | hk <;> rcases hp with hp | hp <;> rw [hk, hp]
  · exact ⟨fun h => absurd rfl h.1, fun h => absurd h.1 e1⟩
  · refine ⟨fun h => ?_, fun h => absurd h.1 e1⟩
    exfalso
    apply h.2.1
    have h3 := h.2.2
    rw [kc] at h3
    rw [kv]
    simp only [List.map_cons, List.map_nil, List.mem_cons, List.not_mem_nil, or_false] at h3 ⊢
    clear kv kc e2 e3 h e1
    generalize "name".toList = w1 at *
    generalize "domain".toList = w2 at *
    generalize "inherit".toList = w3 at *
    generalize "search_order".toList = w4 at *
    generalize "attrs".toList = w5 at *
    generalize "cmap".toList = w6 at *
    generalize "squeeze".toList = w7 at *
    generalize "select".toList = w8 at *
    tauto
  · refine ⟨fun h => ⟨rfl, rfl, ?_⟩, fun h => ⟨e1.symm, ?_, ?_⟩⟩
    · have h2 := h.2.1
      have h3 := h.2.2
      rw [kc] at h2
      rw [kv] at h3
      simp only [List.map_cons, List.map_nil, List.mem_cons, List.not_mem_nil, or_false] at h2 h3 ⊢
      clear kv kc e2 e3 h e1
      generalize "name".toList = w1 at *
      generalize "domain".toList = w2 at *
      generalize "inherit".toList = w3 at *
      generalize "search_order".toList = w4 at *
      generalize "attrs".toList = w5 at *
      generalize "cmap".toList = w6 at *
      generalize "squeeze".toList = w7 at *
      generalize "select".toList = w8 at *
      tauto
    · rcases h.2.2 with rfl | rfl | rfl <;> decide
    · rcases h.2.2 with rfl | rfl | rfl <;> decide
  · exact ⟨fun h => absurd rfl h.1, fun h => absurd h.2.1 e1.symm⟩

/-- **C45.** For every configuration without a cycle of inheritance (and without dangling parents), loading
terminates and succeeds as soon as the recursion limit is above some bound. No name appears or disappears.
A specification that does not inherit is what the configuration says (with a long name), and one that
inherits combines, key by key and attribute by attribute, what the configuration says for it and what its
parent finally contains: its own values win, its own lists come first, and only its unset values are
those of the parent. The keys that only data variables have are not given to a coordinate that inherits from a data variable. -/
theorem C45_inheritance (c : CfCfg) (hw : WfCfg c) (ha : Acyclic c.ents) :
    ∃ N, ∀ limit, N ≤ limit → ∃ c', postProcess limit c = .ok c' ∧
      (∀ k, lookupE k c'.ents = none ↔ lookupE k c.ents = none) ∧
      ∀ k raw, lookupE k c.ents = some raw → ∃ own final, OwnEntry k.2 raw own ∧ lookupE k c'.ents = some final ∧
        ((¬ ∃ p, Inherits c.ents k p) → ∀ f, f ≠ kProcessed → lookupS f final = lookupS f own) ∧
        ∀ p, Inherits c.ents k p → ∃ parent, lookupE p c'.ents = some parent ∧
          lookupS kInherit final = some (.flat .none) ∧
          ∀ f, f ≠ kProcessed → f ≠ kInherit →
            (VarOnly k p f → lookupS f final = none) ∧
            (¬ VarOnly k p f → InheritsS (lookupS f own) (lookupS f parent) (lookupS f final)) := by
  obtain ⟨rank, hr⟩ := ha
  obtain ⟨N, hN⟩ := rank_bound rank (c.ents.map (·.1))
  refine ⟨N, fun limit hl => ?_⟩
  obtain ⟨c', h1, h2, h3, -⟩ := postProcess_ok c hw rank hr limit (fun k hk => by have := hN k hk; omega)
  refine ⟨c', h1, h2, ?_⟩
  have look : ∀ k, lookupE k c.ents ≠ none → ∃ e, lookupE k c'.ents = some e ∧ Res c.ents k e := by
    intro k hk
    cases hx : lookupE k c'.ents with
    | none => exact absurd ((h2 k).1 hx) hk
    | some e => exact ⟨e, rfl, h3 _ (mem_of_lookupE _ _ _ hx)⟩
  intro k raw hraw
  obtain ⟨final, hf, hres⟩ := look k (by rw [hraw]; simp)
  have hwk := hw.entries k raw hraw
  cases hres with
  | root _ e0 e b1 b2 b3 =>
    rw [hraw] at b1; injection b1 with b1; subst b1
    have ho := own_of_prep _ _ _ _ _ hwk b2
    refine ⟨e, markDone e, ho, hf, fun _ f hfk => lookup_markDone e f hfk, ?_⟩
    rintro p ⟨e1, s, g1, g2, g3, g4⟩
    rw [hraw] at g1; injection g1 with g1; subst g1
    exfalso
    rw [← ho.keys _ (by decide)] at g2
    rw [text_of_inherit e s g2 g3] at b3
    simp at b3
  | child _ e0 e txt pe b1 b2 b3 b4 =>
    rw [hraw] at b1; injection b1 with b1; subst b1
    have ho := own_of_prep _ _ _ _ _ hwk b2
    have ht0 : inheritText raw = .ok (some txt) := by
      rw [← inheritText_congr raw e (ho.keys _ (by decide))]; exact b3
    have hinh := inherits_of_text c.ents k raw txt hraw ht0
    refine ⟨e, _, ho, hf, fun hno => absurd ⟨_, hinh⟩ hno, ?_⟩
    rintro p ⟨e1, s, g1, g2, g3, g4⟩
    rw [hraw] at g1; injection g1 with g1; subst g1
    rw [text_of_inherit _ s g2 g3] at ht0
    injection ht0 with ht0; injection ht0 with ht0; subst ht0
    subst g4
    have hpd := b4.done c hw
    obtain ⟨pe', hp1, hp2⟩ := look _ (hw.parents _ _ hinh)
    have := Res.det _ _ _ _ b4 hp2
    subst this
    obtain ⟨praw, hpraw⟩ := Option.ne_none_iff_exists'.1 (hw.parents _ _ hinh)
    refine ⟨pe, hp1, ?_, ?_⟩
    · rw [lookup_markDone _ _ (by decide)]; unfold inheritFrom; rw [lookupS_setS]; simp
    · intro f f1 f2
      rw [lookup_child _ _ _ _ hpd.nodup f f1 f2]
      have hpc := (hw.entries _ _ hpraw).hcat
      refine ⟨fun x => if_pos ((varOnly_iff _ _ _ hwk.hcat hpc).2 x), fun hx => ?_⟩
      rw [if_neg (fun h => hx ((varOnly_iff _ _ _ hwk.hcat hpc).1 h))]
      exact mergedS_inherits _ _ (fun d hd => hpd.dicts f d hd)

end Xoa
