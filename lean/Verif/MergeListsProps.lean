import Verif.MergeAssocProps

/-! # `dict_merge` with `mergelists=True`, for any dictionaries (C49, C95) -/

namespace Xoa

/-- the list object `r` is somewhere in a value: it is the value, or it is in a value of a dictionary -/
inductive Holds (r : Nat) : PV → Prop
  | list : Holds r (.list r)
  | dict (d : PD) (k : String) (v : PV) (hm : (k, v) ∈ d) (hv : Holds r v) : Holds r (.dict d)

/-! ## the list objects of other keys -/

theorem holds_initFrom (o : MergeOpts) (r : Nat) (a : PD) (ha : ¬ Holds r (.dict a)) : ∀ p ∈ initFrom o a, ¬ Holds r p.2 := by
  intro p hp hh
  apply ha
  unfold initFrom at hp
  split at hp
  · exact .dict a p.1 p.2 (List.mem_filter.1 hp).1 hh
  · exact .dict a p.1 p.2 hp hh

theorem holds_items (r : Nat) (d : PD) (h : ∀ p ∈ d, ¬ Holds r p.2) : ¬ Holds r (.dict d) := by
  rintro (_ | ⟨_, k, v, hm, hv⟩)
  exact h _ hm hv

mutual
/-- merging values that do not hold a list object does not modify it and gives a value that does not hold it -/
theorem mergeVal_other (o : MergeOpts) (r : Nat) (h : Heap) (w : PV) (hw : ¬ Holds r w) : ∀ v, ¬ Holds r v →
    (mergeVal o h w v).1 r = h r ∧ ¬ Holds r (mergeVal o h w v).2
  | .dict b, hv => by
    unfold mergeVal
    cases w with
    | dict a =>
      simp only
      split
      · have := mergeItems_other o r h (initFrom o a) (holds_initFrom o r a hw) b (fun p hp hh => hv (.dict b p.1 p.2 hp hh))
        exact ⟨this.1, holds_items r _ this.2⟩
      · exact ⟨rfl, hw⟩
    | _ => exact ⟨rfl, hw⟩
  | .list rb, hv => by
    unfold mergeVal
    cases w with
    | list ra =>
      have hne : r ≠ ra := by rintro rfl; exact hw .list
      simp only
      split
      · split
        · refine ⟨by simp [hne], ?_⟩
          rintro ⟨⟩
        · exact ⟨by simp [hne], hw⟩
      · exact ⟨rfl, hw⟩
    | _ => exact ⟨rfl, hw⟩
  | .tuple tb, hv => by
    unfold mergeVal
    cases w with
    | tuple ta =>
      simp only
      split
      · refine ⟨rfl, ?_⟩
        rintro ⟨⟩
      · exact ⟨rfl, hw⟩
    | _ => exact ⟨rfl, hw⟩
  | .none, _ => by unfold mergeVal; exact ⟨rfl, hw⟩
  | .atom _, _ => by unfold mergeVal; exact ⟨rfl, hw⟩
  | .gen _, _ => by unfold mergeVal; exact ⟨rfl, hw⟩

theorem mergeItems_other (o : MergeOpts) (r : Nat) (h : Heap) (out : PD) (ho : ∀ p ∈ out, ¬ Holds r p.2) : ∀ d : List (String × PV), (∀ p ∈ d, ¬ Holds r p.2) →
    (mergeItems o h out d).1 r = h r ∧ ∀ p ∈ (mergeItems o h out d).2, ¬ Holds r p.2
  | [], _ => by unfold mergeItems; exact ⟨rfl, ho⟩
  | kv :: rest, hd => by
    unfold mergeItems
    simp only
    have h1 := mergeItem_other o r h out ho kv (hd kv (List.mem_cons_self ..))
    have h2 := mergeItems_other o r (mergeItem o h out kv).1 (mergeItem o h out kv).2 h1.2 rest (fun p hp => hd p (List.mem_cons_of_mem _ hp))
    exact ⟨h2.1.trans h1.1, h2.2⟩

theorem mergeItem_other (o : MergeOpts) (r : Nat) (h : Heap) (out : PD) (ho : ∀ p ∈ out, ¬ Holds r p.2) : ∀ kv : String × PV, ¬ Holds r kv.2 →
    (mergeItem o h out kv).1 r = h r ∧ ∀ p ∈ (mergeItem o h out kv).2, ¬ Holds r p.2
  | (k, v), hv => by
    unfold mergeItem
    have hset : ∀ x : PV, ¬ Holds r x → ∀ p ∈ setK k x out, ¬ Holds r p.2 := by
      intro x hx p hp
      rcases mem_setK k x out p hp with rfl | hp
      · exact hx
      · exact ho p hp
    split
    · exact ⟨rfl, ho⟩
    · split
      · exact ⟨rfl, hset v hv⟩
      · next w hw =>
        have hww : ¬ Holds r w := ho _ (lookupK_mem k w out hw)
        split
        · exact ⟨rfl, hset v hv⟩
        · have := mergeVal_other o r h w hww v hv
          exact ⟨this.1, hset _ this.2⟩
end

/-! ## all the items in sequence -/

theorem mergeItems_append (o : MergeOpts) : ∀ (d e : List (String × PV)) (h : Heap) (out : PD),
    mergeItems o h out (d ++ e) = mergeItems o (mergeItems o h out d).1 (mergeItems o h out d).2 e := by
  intro d
  induction d with
  | nil => intro e h out; rfl
  | cons kv d ih =>
    intro e h out
    simp only [List.cons_append, mergeItems]
    exact ih e _ _

theorem mergeAll_flatten (o : MergeOpts) : ∀ (dd : List PD) (h : Heap) (out : PD), mergeAll o h out dd = mergeItems o h out dd.flatten := by
  intro dd
  induction dd with
  | nil => intro h out; rfl
  | cons d dd ih =>
    intro h out
    simp only [mergeAll, List.flatten_cons]
    rw [mergeItems_append, ih]

/-- the values of a key among items -/
def itemsAt (k : String) (l : List (String × PV)) : List PV := (l.filter (fun p => p.1 = k)).map (·.2)

theorem itemsAt_dict (k : String) (d : PD) (hn : (d.map (·.1)).Nodup) : itemsAt k d = (lookupK k d).toList := by
  induction d with
  | nil => rfl
  | cons p d ih =>
    obtain ⟨k', v⟩ := p
    simp only [List.map_cons, List.nodup_cons] at hn
    have ih := ih hn.2
    unfold itemsAt at ih ⊢
    simp only [lookupK]
    by_cases hk : k = k'
    · subst hk
      have : lookupK k d = none := (lookupK_none_iff k d).2 hn.1
      rw [this] at ih
      simp only [Option.toList_none, List.map_eq_nil_iff] at ih
      simp [ih]
    · rw [if_neg hk, List.filter_cons, if_neg (by simpa using fun e => hk e.symm), ih]

theorem itemsAt_flatten (k : String) (dd : List PD) (hn : ∀ d ∈ dd, (d.map (·.1)).Nodup) : itemsAt k dd.flatten = valuesOf k dd := by
  induction dd with
  | nil => rfl
  | cons d dd ih =>
    have e : itemsAt k (d :: dd).flatten = itemsAt k d ++ itemsAt k dd.flatten := by
      unfold itemsAt
      rw [List.flatten_cons, List.filter_append, List.map_append]
    rw [e, ih (fun d hd => hn d (List.mem_cons_of_mem _ hd)), itemsAt_dict k d (hn d (List.mem_cons_self ..))]
    unfold valuesOf
    rw [List.filterMap_cons]
    cases lookupK k d <;> rfl

/-! ## Keys and plain values, with any options -/

theorem mergeItem_isSome (o : MergeOpts) (h : Heap) (out : PD) (kv : String × PV) (k : String) :
    lookupK k (mergeItem o h out kv).2 ≠ none ↔ lookupK k out ≠ none ∨ (k = kv.1 ∧ counts o kv.2 = true) := by
  rw [mergeItem_lookup]
  by_cases hk : k = kv.1
  · rw [if_pos hk]
    unfold combine counts
    by_cases hs : (o.skipnones && kv.2.isNone) = true
    · rw [if_pos hs]; simp [hs]
    · rw [if_neg hs]
      cases lookupK k out with
      | none => simp [hk, hs]
      | some w => simp only; split <;> simp
  · rw [if_neg hk]; simp [hk]

theorem mergeItems_isSome (o : MergeOpts) (k : String) : ∀ (l : List (String × PV)) (h : Heap) (out : PD),
    lookupK k (mergeItems o h out l).2 ≠ none ↔ lookupK k out ≠ none ∨ ∃ p ∈ l, k = p.1 ∧ counts o p.2 = true := by
  intro l
  induction l with
  | nil => intro h out; simp [mergeItems]
  | cons kv l ih =>
    intro h out
    simp only [mergeItems]
    rw [ih, mergeItem_isSome]
    simp only [List.mem_cons, exists_eq_or_imp]
    tauto

/-- **C49** (keys, any options): the keys of the result are exactly the keys of the inputs, those with a `None` value not counting with `skipnones`. -/
theorem C49_keys_any (o : MergeOpts) (h : Heap) (dd : List PD) (hn : ∀ d ∈ dd, (d.map (·.1)).Nodup) (k : String) :
    k ∈ (dictMerge o h dd).2.map (·.1) ↔ ∃ d ∈ dd, ∃ v, lookupK k d = some v ∧ (o.skipnones = true → v ≠ .none) := by
  have e1 : k ∈ (dictMerge o h dd).2.map (·.1) ↔ lookupK k (dictMerge o h dd).2 ≠ none := by
    rw [Ne, lookupK_none_iff, not_not]
  rw [e1]
  unfold dictMerge
  rw [mergeAll_flatten, mergeItems_isSome]
  have hcount : ∀ v : PV, counts o v = true ↔ (o.skipnones = true → v ≠ .none) := by
    intro v
    unfold counts
    cases o.skipnones <;> cases v <;> simp [PV.isNone]
  constructor
  · rintro (h0 | ⟨p, hp, rfl, hc⟩)
    · exact absurd rfl h0
    · obtain ⟨d, hd, hpd⟩ := List.mem_flatten.1 hp
      exact ⟨d, hd, p.2, lookupK_of_mem p.1 p.2 d (hn d hd) hpd, (hcount _).1 hc⟩
  · rintro ⟨d, hd, v, hv, hc⟩
    exact Or.inr ⟨(k, v), List.mem_flatten.2 ⟨d, hd, lookupK_mem k v d hv⟩, rfl, (hcount v).2 hc⟩

theorem mergeItems_plain (o : MergeOpts) (hov : o.overwriteempty = false) (k : String) (v : PV) (hp : v.plain o = true) : ∀ (l : List (String × PV)) (h : Heap) (out : PD),
    lookupK k out = some v → lookupK k (mergeItems o h out l).2 = some v := by
  intro l
  induction l with
  | nil => intro h out he; exact he
  | cons kv l ih =>
    intro h out he
    simp only [mergeItems]
    apply ih
    rw [mergeItem_lookup]
    split
    · rw [he]
      unfold combine
      split
      · rfl
      · simp [hov, mergeVal_plain o h v kv.2 hp]
    · exact he

/-- the first values of a key that do not count leave it unset -/
theorem mergeItems_firstPlain (o : MergeOpts) (hov : o.overwriteempty = false) (k : String) (v : PV) (rest : List PV) (hp : v.plain o = true) :
    ∀ (l : List (String × PV)) (h : Heap) (out : PD), lookupK k out = none → (itemsAt k l).filter (counts o) = v :: rest →
    lookupK k (mergeItems o h out l).2 = some v := by
  intro l
  induction l with
  | nil => intro h out _ hv; cases hv
  | cons kv l ih =>
    intro h out he hv
    simp only [mergeItems]
    unfold itemsAt at hv
    by_cases hk : kv.1 = k
    · rw [List.filter_cons, if_pos (by simpa using hk), List.map_cons, List.filter_cons] at hv
      by_cases hc : counts o kv.2 = true
      · rw [if_pos hc] at hv
        injection hv with hv1 hv2
        apply mergeItems_plain o hov k v hp
        rw [mergeItem_lookup, if_pos hk.symm, he]
        unfold combine
        rw [counts_true hc, hv1]
        rfl
      · rw [if_neg hc] at hv
        refine ih _ _ ?_ hv
        rw [mergeItem_lookup, if_pos hk.symm, he]
        unfold combine
        have : (o.skipnones && kv.2.isNone) = true := by
          unfold counts at hc
          simpa using hc
        rw [if_pos this]
    · rw [List.filter_cons, if_neg (by simpa using hk)] at hv
      refine ih _ _ ?_ hv
      rw [mergeItem_lookup, if_neg (fun e => hk e.symm)]
      exact he

/-- **C49** (priority, any options but `overwriteempty`): the first value of a key that counts is the one of the result, when values of this kind are not merged. -/
theorem C49_first_priority_any (o : MergeOpts) (hov : o.overwriteempty = false) (h : Heap)
    (dd : List PD) (hn : ∀ d ∈ dd, (d.map (·.1)).Nodup) (k : String) (v : PV) (rest : List PV)
    (hv : (valuesOf k dd).filter (counts o) = v :: rest) (hp : v.plain o = true) :
    lookupK k (dictMerge o h dd).2 = some v := by
  unfold dictMerge
  rw [mergeAll_flatten]
  rw [← itemsAt_flatten k dd hn] at hv
  exact mergeItems_firstPlain o hov k v rest hp dd.flatten h [] rfl hv

/-! ## Lists -/

/-- one more item, when the key already has the list `r1` -/
theorem lists_loop (o : MergeOpts) (hl : o.lists = true) (hu : o.uniquify = false) (hov : o.overwriteempty = false) (k : String) (r1 : Nat) (R : Nat → Prop) (h0 : Heap) (hR1 : R r1) :
    ∀ (l : List (String × PV)) (h : Heap) (out : PD) (done rest : List Nat), lookupK k out = some (.list r1) →
    h r1 = h0 r1 ++ (done.map h0).flatten → (∀ r, R r → r ≠ r1 → h r = h0 r) → (∀ p ∈ out, p.1 ≠ k → ∀ r, R r → ¬ Holds r p.2) →
    (∀ p ∈ l, p.1 ≠ k → ∀ r, R r → ¬ Holds r p.2) → (∀ r ∈ rest, R r ∧ r ≠ r1) → (itemsAt k l).filter (counts o) = rest.map PV.list →
    lookupK k (mergeItems o h out l).2 = some (.list r1) ∧ (mergeItems o h out l).1 r1 = h0 r1 ++ ((done ++ rest).map h0).flatten ∧
      ∀ r, R r → r ≠ r1 → (mergeItems o h out l).1 r = h0 r := by
  intro l
  induction l with
  | nil =>
    intro h out done rest he hh hoth _ _ _ hv
    have : rest = [] := by
      cases rest with
      | nil => rfl
      | cons _ _ => cases hv
    subst this
    simp only [mergeItems, List.append_nil]
    exact ⟨he, hh, hoth⟩
  | cons kv l ih =>
    intro h out done rest he hh hoth hout hin hrest hv
    simp only [mergeItems]
    obtain ⟨k', v⟩ := kv
    unfold itemsAt at hv
    by_cases hk : k' = k
    · subst hk
      rw [List.filter_cons, if_pos (by simp), List.map_cons, List.filter_cons] at hv
      by_cases hc : counts o v = true
      · rw [if_pos hc] at hv
        cases rest with
        | nil => cases hv
        | cons rb rest =>
          simp only [List.map_cons, List.cons.injEq] at hv
          obtain ⟨hv1, hv2⟩ := hv
          have hrb := hrest rb (List.mem_cons_self ..)
          have hitem : mergeItem o h out (k', v) = ((fun r => if r = r1 then h r1 ++ h rb else h r), setK k' (.list r1) out) := by
            subst hv1
            unfold mergeItem
            rw [if_neg (by simp [PV.isNone]), he]
            simp only [hov, Bool.false_and, Bool.false_eq_true, if_false, mergeVal, hl, hu, if_true]
          rw [hitem]
          have := ih (fun r => if r = r1 then h r1 ++ h rb else h r) (setK k' (.list r1) out) (done ++ [rb]) rest
            (by rw [lookupK_setK]; simp) (by simp [hh, hoth rb hrb.1 hrb.2]) (fun r hr hne => by simp [hne, hoth r hr hne])
            (fun p hp hne => by
              rcases mem_setK k' _ out p hp with rfl | hp
              · exact absurd rfl hne
              · exact hout p hp hne)
            (fun p hp => hin p (List.mem_cons_of_mem _ hp)) (fun r hr => hrest r (List.mem_cons_of_mem _ hr)) hv2
          simpa using this
      · rw [if_neg hc] at hv
        have hitem : mergeItem o h out (k', v) = (h, out) := by
          unfold mergeItem
          have : (o.skipnones && v.isNone) = true := by
            unfold counts at hc
            simpa using hc
          rw [if_pos this]
        rw [hitem]
        exact ih h out done rest he hh hoth hout (fun p hp => hin p (List.mem_cons_of_mem _ hp)) hrest hv
    · rw [List.filter_cons, if_neg (by simpa using hk)] at hv
      have hvR : ∀ r, R r → ¬ Holds r v := hin (k', v) (List.mem_cons_self ..) hk
      -- the item of another key: the value it is merged with holds none of the lists
      have key : ∀ r, R r → (mergeItem o h out (k', v)).1 r = h r ∧ ∀ p ∈ (mergeItem o h out (k', v)).2, p.1 ≠ k → ¬ Holds r p.2 := by
        intro r hr
        have hset : ∀ x : PV, ¬ Holds r x → ∀ p ∈ setK k' x out, p.1 ≠ k → ¬ Holds r p.2 := by
          intro x hx p hp hne
          rcases mem_setK k' x out p hp with rfl | hp
          · exact hx
          · exact hout p hp hne r hr
        unfold mergeItem
        split
        · exact ⟨rfl, fun p hp hne => hout p hp hne r hr⟩
        · split
          · exact ⟨rfl, hset v (hvR r hr)⟩
          · next w hw =>
            have hww : ¬ Holds r w := hout _ (lookupK_mem k' w out hw) hk r hr
            split
            · exact ⟨rfl, hset v (hvR r hr)⟩
            · have := mergeVal_other o r h w hww v (hvR r hr)
              exact ⟨this.1, hset _ this.2⟩
      refine ih _ _ done rest ?_ ?_ ?_ ?_ (fun p hp => hin p (List.mem_cons_of_mem _ hp)) hrest hv
      · rw [mergeItem_lookup, if_neg (fun e => hk e.symm)]; exact he
      · rw [(key r1 hR1).1]; exact hh
      · intro r hr hne
        rw [(key r hr).1]; exact hoth r hr hne
      · intro p hp hne r hr
        exact (key r hr).2 p hp hne

theorem lists_start (o : MergeOpts) (hl : o.lists = true) (hu : o.uniquify = false) (hov : o.overwriteempty = false) (k : String) (r1 : Nat) (R : Nat → Prop) (h0 : Heap) (hR1 : R r1) :
    ∀ (l : List (String × PV)) (h : Heap) (out : PD) (rest : List Nat), lookupK k out = none →
    (∀ r, R r → h r = h0 r) → (∀ p ∈ out, ∀ r, R r → ¬ Holds r p.2) →
    (∀ p ∈ l, p.1 ≠ k → ∀ r, R r → ¬ Holds r p.2) → (∀ r ∈ rest, R r ∧ r ≠ r1) → (itemsAt k l).filter (counts o) = (r1 :: rest).map PV.list →
    lookupK k (mergeItems o h out l).2 = some (.list r1) ∧ (mergeItems o h out l).1 r1 = h0 r1 ++ (rest.map h0).flatten ∧
      ∀ r, R r → r ≠ r1 → (mergeItems o h out l).1 r = h0 r := by
  intro l
  induction l with
  | nil => intro h out rest _ _ _ _ _ hv; cases hv
  | cons kv l ih =>
    intro h out rest he hh hout hin hrest hv
    simp only [mergeItems]
    obtain ⟨k', v⟩ := kv
    unfold itemsAt at hv
    by_cases hk : k' = k
    · subst hk
      rw [List.filter_cons, if_pos (by simp), List.map_cons, List.filter_cons] at hv
      by_cases hc : counts o v = true
      · rw [if_pos hc] at hv
        simp only [List.map_cons, List.cons.injEq] at hv
        obtain ⟨hv1, hv2⟩ := hv
        have hitem : mergeItem o h out (k', v) = (h, setK k' (.list r1) out) := by
          subst hv1
          unfold mergeItem
          rw [if_neg (by simp [PV.isNone]), he]
        rw [hitem]
        have := lists_loop o hl hu hov k' r1 R h0 hR1 l h (setK k' (.list r1) out) [] rest (by rw [lookupK_setK]; simp) (by simp [hh r1 hR1]) (fun r hr _ => hh r hr)
          (fun p hp hne => by
            rcases mem_setK k' _ out p hp with rfl | hp
            · exact absurd rfl hne
            · exact hout p hp)
          (fun p hp => hin p (List.mem_cons_of_mem _ hp)) hrest hv2
        simpa using this
      · rw [if_neg hc] at hv
        have hitem : mergeItem o h out (k', v) = (h, out) := by
          unfold mergeItem
          have : (o.skipnones && v.isNone) = true := by
            unfold counts at hc
            simpa using hc
          rw [if_pos this]
        rw [hitem]
        exact ih h out rest he hh hout (fun p hp => hin p (List.mem_cons_of_mem _ hp)) hrest hv
    · rw [List.filter_cons, if_neg (by simpa using hk)] at hv
      have hvR : ∀ r, R r → ¬ Holds r v := hin (k', v) (List.mem_cons_self ..) hk
      have key : ∀ r, R r → (mergeItem o h out (k', v)).1 r = h r ∧ ∀ p ∈ (mergeItem o h out (k', v)).2, ¬ Holds r p.2 :=
        fun r hr => mergeItem_other o r h out (fun p hp => hout p hp r hr) (k', v) (hvR r hr)
      refine ih _ _ rest ?_ ?_ ?_ (fun p hp => hin p (List.mem_cons_of_mem _ hp)) hrest hv
      · rw [mergeItem_lookup, if_neg (fun e => hk e.symm)]; exact he
      · intro r hr
        rw [(key r hr).1]; exact hh r hr
      · intro p hp r hr
        exact (key r hr).2 p hp

/-- **C49** (`mergelists`, any dictionaries): when the values of a key that count are lists, the result has at this key the first of these objects, whose contents are now those of all of them
in the order of the dictionaries; the other lists are unchanged. The first list object must not be given twice, nor any of them be held by another key. -/
theorem C49_lists_any (o : MergeOpts) (hl : o.lists = true) (hu : o.uniquify = false) (hov : o.overwriteempty = false) (h : Heap)
    (dd : List PD) (hn : ∀ d ∈ dd, (d.map (·.1)).Nodup) (k : String) (r1 : Nat) (rest : List Nat) (hv : (valuesOf k dd).filter (counts o) = (r1 :: rest).map PV.list)
    (hne : r1 ∉ rest) (hoth : ∀ d ∈ dd, ∀ k' v, (k', v) ∈ d → k' ≠ k → ∀ r ∈ r1 :: rest, ¬ Holds r v) :
    lookupK k (dictMerge o h dd).2 = some (.list r1) ∧ (dictMerge o h dd).1 r1 = h r1 ++ (rest.map h).flatten ∧ ∀ r ∈ rest, (dictMerge o h dd).1 r = h r := by
  unfold dictMerge
  rw [mergeAll_flatten]
  rw [← itemsAt_flatten k dd hn] at hv
  have := lists_start o hl hu hov k r1 (fun r => r ∈ r1 :: rest) h (List.mem_cons_self ..) dd.flatten h [] rest rfl (fun _ _ => rfl) (fun p hp => by cases hp)
    (fun p hp hk r hr => by
      obtain ⟨d, hd, hpd⟩ := List.mem_flatten.1 hp
      exact hoth d hd p.1 p.2 hpd hk r hr)
    (fun r hr => ⟨List.mem_cons_of_mem _ hr, fun e => hne (e ▸ hr)⟩) hv
  exact ⟨this.1, this.2.1, fun r hr => this.2.2 r (List.mem_cons_of_mem _ hr) (fun e => hne (e ▸ hr))⟩

/-- **C95** (what is modified): a list object that is not held by any of the dictionaries is not modified by a merge, whatever the options. -/
theorem C95_others_unchanged_partial (o : MergeOpts) (h : Heap) (dd : List PD) (r : Nat) (hr : ∀ d ∈ dd, ¬ Holds r (.dict d)) : (dictMerge o h dd).1 r = h r := by
  unfold dictMerge
  rw [mergeAll_flatten]
  refine (mergeItems_other o r h [] (fun p hp => by cases hp) dd.flatten ?_).1
  intro p hp hh
  obtain ⟨d, hd, hpd⟩ := List.mem_flatten.1 hp
  exact hr d hd (.dict d p.1 p.2 hpd hh)

/-! ## Concrete cases -/

def exLists : List PD := [[("n", .atom (.int 1)), ("e", .list 0), ("s", .dict [("t", .list 3)])], [("e", .none)], [("s", .dict [("t", .list 4)]), ("e", .list 1)], [("e", .list 2), ("m", .list 5)]]
def exHeap : Heap := fun r => [.int r]
-- the hypotheses of `C49_lists_any` are met: lists 0, 1 and 2 at the key `e`, lists 3, 4 and 5 elsewhere
example : lookupK "e" (dictMerge { lists := true } exHeap exLists).2 = some (.list 0) ∧ (dictMerge { lists := true } exHeap exLists).1 0 = [.int 0, .int 1, .int 2] := by
  have := C49_lists_any { lists := true } rfl rfl rfl exHeap exLists (by decide) "e" 0 [1, 2] rfl (by decide) (by
    intro d hd k' v hv hk r hr hh
    simp only [exLists, List.mem_cons, List.not_mem_nil, or_false] at hd
    rcases hd with rfl | rfl | rfl | rfl <;> simp only [List.mem_cons, List.not_mem_nil, or_false, Prod.mk.injEq] at hv
    · rcases hv with ⟨rfl, rfl⟩ | ⟨rfl, rfl⟩ | ⟨rfl, rfl⟩
      · cases hh
      · exact hk rfl
      · rcases hh with _ | ⟨_, k2, v2, hm, hh⟩
        simp only [List.mem_cons, List.not_mem_nil, or_false, Prod.mk.injEq] at hm
        obtain ⟨rfl, rfl⟩ := hm
        cases hh
        simp at hr
    · exact hk hv.1
    · rcases hv with ⟨rfl, rfl⟩ | ⟨rfl, rfl⟩
      · rcases hh with _ | ⟨_, k2, v2, hm, hh⟩
        simp only [List.mem_cons, List.not_mem_nil, or_false, Prod.mk.injEq] at hm
        obtain ⟨rfl, rfl⟩ := hm
        cases hh
        simp at hr
      · exact hk rfl
    · rcases hv with ⟨rfl, rfl⟩ | ⟨rfl, rfl⟩
      · exact hk rfl
      · cases hh
        simp at hr)
  exact ⟨this.1, this.2.1⟩
-- keys with `mergelists`
example : (dictMerge { lists := true } exHeap exLists).2.map (·.1) = ["n", "e", "s", "m"] := by decide +kernel

end Xoa
