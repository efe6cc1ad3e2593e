import Verif.MergeListsProps

/-! # `dict_merge` with `mergelists=True, uniquify=True`, for any dictionaries (C94) -/

namespace Xoa

theorem items_split (o : MergeOpts) (k : String) (v : PV) (rest : List PV) : ∀ l : List (String × PV), (itemsAt k l).filter (counts o) = v :: rest →
    ∃ l1 l2, l = l1 ++ (k, v) :: l2 ∧ (∀ p ∈ l1, p.1 = k → counts o p.2 = false) ∧ counts o v = true ∧ (itemsAt k l2).filter (counts o) = rest := by
  intro l
  induction l with
  | nil => intro h; cases h
  | cons kv l ih =>
    intro hv
    obtain ⟨k', w⟩ := kv
    unfold itemsAt at hv
    by_cases hk : k' = k
    · subst hk
      rw [List.filter_cons, if_pos (by simp), List.map_cons, List.filter_cons] at hv
      by_cases hc : counts o w = true
      · rw [if_pos hc] at hv
        injection hv with h1 h2
        subst h1
        exact ⟨[], l, rfl, fun p hp => (List.not_mem_nil hp).elim, hc, h2⟩
      · rw [if_neg hc] at hv
        obtain ⟨l1, l2, rfl, h1, h2⟩ := ih hv
        refine ⟨(k', w) :: l1, l2, rfl, ?_, h2⟩
        intro p hp hpk
        rcases List.mem_cons.1 hp with rfl | hp
        · simpa using hc
        · exact h1 p hp hpk
    · rw [List.filter_cons, if_neg (by simpa using hk)] at hv
      obtain ⟨l1, l2, rfl, h1, h2⟩ := ih hv
      refine ⟨(k', w) :: l1, l2, rfl, ?_, h2⟩
      intro p hp hpk
      rcases List.mem_cons.1 hp with rfl | hp
      · exact absurd hpk hk
      · exact h1 p hp hpk

/-- items that do not count for the key, and do not hold the list objects `R`, change neither the key nor these objects -/
theorem items_skip (o : MergeOpts) (k : String) (R : Nat → Prop) : ∀ (l : List (String × PV)) (h : Heap) (out : PD),
    (∀ p ∈ out, p.1 ≠ k → ∀ r, R r → ¬ Holds r p.2) → (∀ p ∈ l, p.1 = k → counts o p.2 = false) → (∀ p ∈ l, p.1 ≠ k → ∀ r, R r → ¬ Holds r p.2) →
    lookupK k (mergeItems o h out l).2 = lookupK k out ∧ (∀ r, R r → (mergeItems o h out l).1 r = h r) ∧
      ∀ p ∈ (mergeItems o h out l).2, p.1 ≠ k → ∀ r, R r → ¬ Holds r p.2 := by
  intro l
  induction l with
  | nil => intro h out ho _ _; exact ⟨rfl, fun _ _ => rfl, ho⟩
  | cons kv l ih =>
    intro h out ho hc hl
    obtain ⟨k', v⟩ := kv
    simp only [mergeItems]
    by_cases hk : k' = k
    · have hcv := hc (k', v) (List.mem_cons_self ..) hk
      have hitem : mergeItem o h out (k', v) = (h, out) := by
        unfold mergeItem
        have : (o.skipnones && v.isNone) = true := by
          unfold counts at hcv
          simpa using hcv
        rw [if_pos this]
      rw [hitem]
      exact ih h out ho (fun p hp => hc p (List.mem_cons_of_mem _ hp)) (fun p hp => hl p (List.mem_cons_of_mem _ hp))
    · have hvR : ∀ r, R r → ¬ Holds r v := hl (k', v) (List.mem_cons_self ..) hk
      have key : ∀ r, R r → (mergeItem o h out (k', v)).1 r = h r ∧ ∀ p ∈ (mergeItem o h out (k', v)).2, p.1 ≠ k → ¬ Holds r p.2 := by
        intro r hr
        have hset : ∀ x : PV, ¬ Holds r x → ∀ p ∈ setK k' x out, p.1 ≠ k → ¬ Holds r p.2 := by
          intro x hx p hp hne
          rcases mem_setK k' x out p hp with rfl | hp
          · exact hx
          · exact ho p hp hne r hr
        unfold mergeItem
        split
        · exact ⟨rfl, fun p hp hne => ho p hp hne r hr⟩
        · split
          · exact ⟨rfl, hset v (hvR r hr)⟩
          · next w hw =>
            have hww : ¬ Holds r w := ho _ (lookupK_mem k' w out hw) hk r hr
            split
            · exact ⟨rfl, hset v (hvR r hr)⟩
            · have := mergeVal_other o r h w hww v (hvR r hr)
              exact ⟨this.1, hset _ this.2⟩
      have := ih (mergeItem o h out (k', v)).1 (mergeItem o h out (k', v)).2 (fun p hp hne r hr => (key r hr).2 p hp hne)
        (fun p hp => hc p (List.mem_cons_of_mem _ hp)) (fun p hp => hl p (List.mem_cons_of_mem _ hp))
      refine ⟨?_, fun r hr => (this.2.1 r hr).trans (key r hr).1, this.2.2⟩
      rw [this.1, mergeItem_lookup, if_neg (fun e => hk e.symm)]

theorem mergeVal_gen (o : MergeOpts) (h : Heap) (l : List Atom) (v : PV) : mergeVal o h (.gen l) v = (h, .gen l) := by
  cases v <;> simp [mergeVal]

theorem items_gen (o : MergeOpts) (hov : o.overwriteempty = false) (k : String) (g : List Atom) : ∀ (l : List (String × PV)) (h : Heap) (out : PD),
    lookupK k out = some (.gen g) → lookupK k (mergeItems o h out l).2 = some (.gen g) := by
  intro l
  induction l with
  | nil => intro h out he; exact he
  | cons kv l ih =>
    intro h out he
    simp only [mergeItems]
    apply ih
    rw [mergeItem_lookup]
    split
    · rw [he]
      unfold combine
      split
      · rfl
      · simp [hov, mergeVal_gen]
    · exact he

/-- **C94 is violated** by `uniquify` for all the dictionaries: when the first two values of a key that count are lists, the value of the result at this key is a generator (no list) that gives each value of
these two lists once, in the order of first appearance, whatever the values of the other dictionaries at this key (`more`), lists included, which are dropped. -/
theorem C94_uniquify_any_violated (o : MergeOpts) (hl : o.lists = true) (hu : o.uniquify = true) (hov : o.overwriteempty = false) (h : Heap)
    (dd : List PD) (hn : ∀ d ∈ dd, (d.map (·.1)).Nodup) (k : String) (r1 r2 : Nat) (more : List PV) (hv : (valuesOf k dd).filter (counts o) = .list r1 :: .list r2 :: more)
    (hoth : ∀ d ∈ dd, ∀ k' v, (k', v) ∈ d → k' ≠ k → ¬ Holds r1 v ∧ ¬ Holds r2 v) :
    ∃ l : List Atom, lookupK k (dictMerge o h dd).2 = some (.gen l) ∧ (∀ x : Atom, x ∈ l ↔ x ∈ h r1 ∨ x ∈ h r2) ∧ l.Nodup ∧
      l.Pairwise (fun a b => (h r1 ++ h r2).idxOf a < (h r1 ++ h r2).idxOf b) := by
  refine ⟨gunique (h r1 ++ h r2), ?_, ?_, (C52_gunique _).2⟩
  · unfold dictMerge
    rw [mergeAll_flatten]
    rw [← itemsAt_flatten k dd hn] at hv
    have hR : ∀ p ∈ dd.flatten, p.1 ≠ k → ∀ r, (r = r1 ∨ r = r2) → ¬ Holds r p.2 := by
      intro p hp hk r hr
      obtain ⟨d, hd, hpd⟩ := List.mem_flatten.1 hp
      have := hoth d hd p.1 p.2 hpd hk
      rcases hr with rfl | rfl
      · exact this.1
      · exact this.2
    generalize dd.flatten = L at hv hR
    obtain ⟨a, L2, rfl, ha, -, hv⟩ := items_split o k _ _ L hv
    obtain ⟨b, c, rfl, hb, -, -⟩ := items_split o k _ _ L2 hv
    rw [mergeItems_append]
    have h1 := items_skip o k (fun r => r = r1 ∨ r = r2) a h [] (fun p hp => by cases hp) ha (fun p hp => hR p (by simp [hp]))
    generalize mergeItems o h [] a = s1 at h1 ⊢
    obtain ⟨e1, e2, e3⟩ := h1
    simp only [mergeItems]
    have hitem : mergeItem o s1.1 s1.2 (k, .list r1) = (s1.1, setK k (.list r1) s1.2) := by
      unfold mergeItem
      rw [if_neg (by simp [PV.isNone]), e1]
      rfl
    rw [hitem, mergeItems_append]
    have h2 := items_skip o k (fun r => r = r1 ∨ r = r2) b s1.1 (setK k (.list r1) s1.2) (fun p hp hne => by
        rcases mem_setK k _ s1.2 p hp with rfl | hp
        · exact absurd rfl hne
        · exact e3 p hp hne) hb (fun p hp => hR p (by simp [hp]))
    simp only at h2 ⊢
    generalize mergeItems o s1.1 (setK k (.list r1) s1.2) b = s2 at h2 ⊢
    obtain ⟨f1, f2, f3⟩ := h2
    rw [lookupK_setK, if_pos rfl] at f1
    simp only [mergeItems]
    apply items_gen o hov
    rw [mergeItem_lookup, if_pos rfl, f1]
    unfold combine
    have ea : s2.1 r1 = h r1 := (f2 r1 (Or.inl rfl)).trans (e2 r1 (Or.inl rfl))
    have eb : s2.1 r2 = h r2 := (f2 r2 (Or.inr rfl)).trans (e2 r2 (Or.inr rfl))
    simp [PV.isNone, hov, mergeVal, hl, hu, ea, eb]
  · intro x
    rw [(C52_gunique _).1 x, List.mem_append]

/-- the hypotheses are met: the third list, `[3]`, is dropped -/
example : lookupK "e" (dictMerge { lists := true, uniquify := true } (fun r => [.int r, .int 0])
    [[("n", .atom (.int 1)), ("e", .list 0)], [("e", .none)], [("e", .list 1), ("m", .list 7)], [("e", .list 3)]]).2 = some (.gen [.int 0, .int 1]) := by
  simp [dictMerge, mergeAll, mergeItems, mergeItem, mergeVal, lookupK, setK, PV.isNone]
  decide

end Xoa
