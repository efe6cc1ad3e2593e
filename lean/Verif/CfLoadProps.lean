import Verif.CfLoad
import Verif.MiscMergeProps

/-!
# Loading several configurations (C128, C129)
-/

namespace Xoa

/-! ### lists only grow -/

theorem appendTo_prefix (h : Heap) (r : Nat) (l : List Atom) (i : Nat) : h i <+: appendTo h r l i := by
  unfold appendTo
  split
  · exact List.prefix_append _ _
  · exact List.prefix_refl _

theorem exceptBind_inv {ε α β : Type} {x : Except ε α} {f : α → Except ε β} {b : β} (h : x.bind f = .ok b) :
    ∃ a, x = .ok a ∧ f a = .ok b := by
  cases x with
  | error e => cases h
  | ok a => exact ⟨a, rfl, h⟩

theorem exceptMap_inv {ε α β : Type} {x : Except ε α} {f : α → β} {b : β} (h : x.map f = .ok b) :
    ∃ a, x = .ok a ∧ f a = b := by
  cases x with
  | error e => cases h
  | ok a => exact ⟨a, rfl, by injection h⟩

theorem prepH_prefix (h h' : Heap) (name : String) (e : PD) (hp : prepH h name e = .ok h') (r : Nat) : h r <+: h' r := by
  unfold prepH at hp
  obtain ⟨a, -, hp⟩ := exceptBind_inv hp
  obtain ⟨ln, -, hp⟩ := exceptBind_inv hp
  split at hp
  · obtain ⟨sn, -, hp⟩ := exceptBind_inv hp
    obtain ⟨txt, -, hp⟩ := exceptBind_inv hp
    cases ln with
    | list q => injection hp with hp; subst hp; exact appendTo_prefix h q _ r
    | _ => cases hp
  · injection hp with hp; subst hp; exact List.prefix_refl _

theorem fromParent_prefix (k p : HKey) (h : Heap) (e pe : PD) (r : Nat) : h r <+: (fromParent k p h e pe).1 r :=
  C95_inputs_extended_partial cfMergeOpts h [e, pe] r

/-- the cases of a successful `_process_entry_` -/
theorem processH_inv (n : Nat) (h : Heap) (D : HEnts) (k : HKey) (out : Heap × HEnts × HEnts) (hp : processH n h D k = .ok out) :
    ∃ m e h1, n = m + 1 ∧ lookupH k D = some e ∧ prepH h k.2 e = .ok h1 ∧
      (out = (h1, D, [(k, e)]) ∨
        ∃ p r pe, p ≠ k ∧ processH m h1 D p = .ok r ∧ lookupH p r.2.1 = some pe ∧
          out = ((fromParent k p r.1 e pe).1, setH k (fromParent k p r.1 e pe).2 r.2.1, r.2.2 ++ [(k, (fromParent k p r.1 e pe).2)])) := by
  cases n with
  | zero => cases hp
  | succ m =>
    unfold processH at hp
    cases hl : lookupH k D with
    | none => rw [hl] at hp; cases hp
    | some e =>
      rw [hl] at hp
      simp only at hp
      obtain ⟨h1, hh, hp⟩ := exceptBind_inv hp
      obtain ⟨t, -, hp⟩ := exceptBind_inv hp
      refine ⟨m, e, h1, rfl, rfl, hh, ?_⟩
      cases t with
      | none => injection hp with hp; exact Or.inl hp.symm
      | some txt =>
        simp only at hp
        right
        by_cases hk : parentOf k.1 txt = k
        · rw [if_pos hk] at hp; cases hp
        · rw [if_neg hk] at hp
          obtain ⟨r, hr, hp⟩ := exceptBind_inv hp
          cases hq : lookupH (parentOf k.1 txt) r.2.1 with
          | none => rw [hq] at hp; cases hp
          | some pe =>
            rw [hq] at hp
            injection hp with hp
            exact ⟨_, r, pe, hk, hr, hq, hp.symm⟩

theorem processH_prefix (n : Nat) : ∀ (h : Heap) (D : HEnts) (k : HKey) (out : Heap × HEnts × HEnts), processH n h D k = .ok out →
    ∀ r, h r <+: out.1 r := by
  induction n with
  | zero => intro h D k out hp; cases hp
  | succ m ih =>
    intro h D k out hp r
    obtain ⟨m', e, h1, hm, -, hh, ho⟩ := processH_inv _ h D k out hp
    cases hm
    have h0 := prepH_prefix h h1 k.2 e hh r
    rcases ho with ho | ⟨p, q, pe, -, hq, -, ho⟩
    · rw [ho]; exact h0
    · rw [ho]; exact (h0.trans (ih _ _ _ _ hq r)).trans (fromParent_prefix k p q.1 e pe r)

theorem processAllH_prefix (n : Nat) : ∀ (ks : List HKey) (h : Heap) (D : HEnts) (out : Heap × HEnts × HEnts), processAllH n h D ks = .ok out →
    ∀ r, h r <+: out.1 r := by
  intro ks
  induction ks with
  | nil => intro h D out hp r; injection hp with hp; subst hp; exact List.prefix_refl _
  | cons k ks ih =>
    intro h D out hp r
    unfold processAllH at hp
    obtain ⟨a, ha, hp⟩ := exceptBind_inv hp
    obtain ⟨b, hb, hp⟩ := exceptBind_inv hp
    injection hp with hp
    subst hp
    exact (processH_prefix n h D k a ha r).trans (ih _ _ _ hb r)

theorem addDimsH_prefix (dims : PD) (h h' : Heap) (name : String) (e : PD) (hp : addDimsH dims h name e = .ok h') (r : Nat) : h r <+: h' r := by
  unfold addDimsH at hp
  obtain ⟨a, -, hp⟩ := exceptBind_inv hp
  obtain ⟨ax, -, hp⟩ := exceptBind_inv hp
  split at hp
  · injection hp with hp; subst hp; exact List.prefix_refl _
  · split at hp
    · obtain ⟨l, -, hp⟩ := exceptBind_inv hp
      split at hp
      · obtain ⟨d, -, hp⟩ := exceptBind_inv hp
        split at hp
        · injection hp with hp; subst hp; exact appendTo_prefix h _ _ r
        · cases hp
      · cases hp
    · cases hp

theorem allDimsH_prefix (dims : PD) : ∀ (l : List (String × PV)) (h h' : Heap), allDimsH dims h l = .ok h' → ∀ r, h r <+: h' r := by
  intro l
  induction l with
  | nil => intro h h' hp r; injection hp with hp; subst hp; exact List.prefix_refl _
  | cons p l ih =>
    intro h h' hp r
    obtain ⟨n, v⟩ := p
    cases v with
    | dict e =>
      unfold allDimsH at hp
      obtain ⟨h1, h2, hp⟩ := exceptBind_inv hp
      exact (addDimsH_prefix dims h h1 n e h2 r).trans (ih _ _ hp r)
    | _ => cases hp

/-- the steps of a successful `_post_process_` -/
theorem postH_inv (n : Nat) (h : Heap) (D : PD) (out : Heap × PD) (hp : postH n h D = .ok out) :
    ∃ r1 r2 dims, processAllH n h (entsOf "data_vars" D ++ entsOf "coords" D) (namesH "data_vars" (entsOf "data_vars" D)) = .ok r1 ∧
      processAllH n r1.1 r1.2.1 (namesH "coords" r1.2.1) = .ok r2 ∧
      subK "dims" D = .ok dims ∧ allDimsH dims r2.1 (refillH "coords" (r1.2.2 ++ r2.2.2)) = .ok out.1 ∧
      out.2 = setK "coords" (.dict (refillH "coords" (r1.2.2 ++ r2.2.2))) (setK "data_vars" (.dict (refillH "data_vars" (r1.2.2 ++ r2.2.2))) D) := by
  unfold postH at hp
  obtain ⟨r1, h1, hp⟩ := exceptBind_inv hp
  obtain ⟨r2, h2, hp⟩ := exceptBind_inv hp
  obtain ⟨dims, h0, hp⟩ := exceptBind_inv hp
  obtain ⟨h', h3, hp⟩ := exceptBind_inv hp
  injection hp with hp
  subst hp
  exact ⟨r1, r2, dims, h1, h2, h0, h3, rfl⟩

theorem postH_prefix (n : Nat) (h : Heap) (D : PD) (out : Heap × PD) (hp : postH n h D = .ok out) (r : Nat) : h r <+: out.1 r := by
  obtain ⟨r1, r2, dims, h1, h2, -, h3, -⟩ := postH_inv n h D out hp
  exact ((processAllH_prefix n _ _ _ _ h1 r).trans (processAllH_prefix n _ _ _ _ h2 r)).trans (allDimsH_prefix dims _ _ _ h3 r)

/-- the steps of a successful load -/
theorem loadSpecs_inv (n : Nat) (st : CfSess) (srcs : List CfSrc) (out : CfSess × PD) (hp : loadSpecs n st srcs = .ok out) :
    ∃ dd r, srcDicts st srcs = .ok dd ∧ postH n (dictMerge cfMergeOpts st.heap dd).1 (dictMerge cfMergeOpts st.heap dd).2 = .ok r ∧
      out.1.heap = r.1 ∧ out.2 = r.2 := by
  unfold loadSpecs at hp
  obtain ⟨dd, h1, hp⟩ := exceptBind_inv hp
  obtain ⟨r, h2, hp⟩ := exceptBind_inv hp
  injection hp with hp
  subst hp
  exact ⟨dd, r, h1, h2, rfl, rfl⟩

/-- **C128**: a load never removes, changes or moves an element of a list of another configuration: it can only append some. -/
theorem C128_lists_grow_partial (n : Nat) (st : CfSess) (srcs : List CfSrc) (out : CfSess × PD) (hp : loadSpecs n st srcs = .ok out) (r : Nat) :
    st.heap r <+: out.1.heap r := by
  obtain ⟨dd, q, h1, h2, h3, -⟩ := loadSpecs_inv n st srcs out hp
  rw [h3]
  exact (C95_inputs_extended_partial cfMergeOpts st.heap dd r).trans (postH_prefix n _ _ q h2 r)

/-! ### the lists of the first configuration stay first -/

theorem not_empty_of_prefix {h h' : Heap} {r : Nat} (hp : h r <+: h' r) (hr : h r ≠ []) : h' r ≠ [] := by
  intro e
  rw [e] at hp
  exact hr (List.prefix_nil.mp hp)

theorem getPath_cons (k : String) (q : List String) (d : PD) : getPath (k :: q) (.dict d) = (lookupK k d).bind (getPath q) := rfl

theorem initFrom_cf (d : PD) : initFrom cfMergeOpts d = d := rfl

/-- the list at a path of the accumulated dictionary stays there -/
theorem mergeItems_path (r : Nat) : ∀ (q : List String), q ≠ [] → ∀ (items : List (String × PV)) (h : Heap) (out : PD), h r ≠ [] →
    getPath q (.dict out) = some (.list r) → getPath q (.dict (mergeItems cfMergeOpts h out items).2) = some (.list r) := by
  intro q
  induction q with
  | nil => intro hq; exact absurd rfl hq
  | cons k q ihq =>
    intro _ items
    induction items with
    | nil => intro h out _ hg; exact hg
    | cons kv items ihi =>
      intro h out hr hg
      unfold mergeItems
      refine ihi _ _ (not_empty_of_prefix (mergeItem_prefix cfMergeOpts h out kv r) hr) ?_
      rw [getPath_cons] at hg ⊢
      rw [mergeItem_lookup]
      by_cases hk : k = kv.1
      · rw [if_pos hk]
        cases hl : lookupK k out with
        | none => rw [hl] at hg; cases hg
        | some w =>
          rw [hl] at hg
          simp only [Option.bind_some] at hg
          have hne : isEmptyPV h w = false := by
            cases q with
            | nil =>
              simp only [getPath, Option.some.injEq] at hg
              subst hg
              cases hh : h r with
              | nil => exact absurd hh hr
              | cons a l => simp [isEmptyPV, hh]
            | cons k2 q2 =>
              cases w with
              | dict a =>
                cases a with
                | nil => simp [getPath, lookupK] at hg
                | cons x a => rfl
              | _ => cases hg
          have : combine cfMergeOpts h (some w) kv.2 = some (mergeVal cfMergeOpts h w kv.2).2 := by
            simp [combine, cfMergeOpts, hne]
          rw [this]
          simp only [Option.bind_some]
          cases q with
          | nil =>
            simp only [getPath, Option.some.injEq] at hg ⊢
            subst hg
            cases kv.2 <;> simp [mergeVal, cfMergeOpts]
          | cons k2 q2 =>
            cases w with
            | dict a =>
              cases hv : kv.2 with
              | dict b =>
                have : (mergeVal cfMergeOpts h (.dict a) (.dict b)).2 = .dict (mergeItems cfMergeOpts h a b).2 := by
                  simp [mergeVal, cfMergeOpts, initFrom]
                rw [this]
                exact ihq (by simp) b h a hr hg
              | _ => simpa [mergeVal] using hg
            | _ => cases hg
      · rw [if_neg hk]; exact hg

theorem mergeAll_path (r : Nat) (q : List String) (hq : q ≠ []) : ∀ (dd : List PD) (h : Heap) (out : PD), h r ≠ [] →
    getPath q (.dict out) = some (.list r) → getPath q (.dict (mergeAll cfMergeOpts h out dd).2) = some (.list r) := by
  intro dd
  induction dd with
  | nil => intro h out _ hg; exact hg
  | cons d dd ih =>
    intro h out hr hg
    unfold mergeAll
    exact ih _ _ (not_empty_of_prefix (mergeItems_prefix cfMergeOpts h out d r) hr) (mergeItems_path r q hq d h out hr hg)

/-- the list at a path of the first dictionary that has the first key stays there -/
theorem mergeItems_first (r : Nat) (k : String) (q : List String) : ∀ (d : PD) (h : Heap) (out : PD), h r ≠ [] → lookupK k out = none →
    getPath (k :: q) (.dict d) = some (.list r) → getPath (k :: q) (.dict (mergeItems cfMergeOpts h out d).2) = some (.list r) := by
  intro d
  induction d with
  | nil => intro h out _ _ hg; cases hg
  | cons kv d ih =>
    intro h out hr ho hg
    have hr' := not_empty_of_prefix (mergeItem_prefix cfMergeOpts h out kv r) hr
    unfold mergeItems
    by_cases hk : k = kv.1
    · refine mergeItems_path r (k :: q) (by simp) d _ _ hr' ?_
      rw [getPath_cons, mergeItem_lookup, if_pos hk, ho]
      rw [getPath_cons] at hg
      obtain ⟨k', v⟩ := kv
      simp only at hk
      subst hk
      simpa [combine, cfMergeOpts, lookupK] using hg
    · refine ih _ _ hr' ?_ ?_
      · rw [mergeItem_lookup, if_neg hk]; exact ho
      · rw [getPath_cons] at hg ⊢
        obtain ⟨k', v⟩ := kv
        simpa [lookupK, hk] using hg

theorem dictMerge_path (r : Nat) (q : List String) (hq : q ≠ []) (d : PD) (dd : List PD) (h : Heap) (hr : h r ≠ [])
    (hg : getPath q (.dict d) = some (.list r)) : getPath q (.dict (dictMerge cfMergeOpts h (d :: dd)).2) = some (.list r) := by
  cases q with
  | nil => exact absurd rfl hq
  | cons k q =>
    unfold dictMerge mergeAll
    exact mergeAll_path r _ hq dd _ _ (not_empty_of_prefix (mergeItems_prefix cfMergeOpts h [] d r) hr) (mergeItems_first r k q d h [] hr rfl hg)

/-! ### entries -/

theorem lookupH_setH (k k' : HKey) (v : PD) (D : HEnts) : lookupH k (setH k' v D) = if k = k' then some v else lookupH k D := by
  induction D with
  | nil => simp [setH, lookupH]
  | cons p D ih =>
    obtain ⟨a, b⟩ := p
    simp only [setH]
    by_cases h1 : k' = a
    · subst h1
      rw [if_pos rfl]
      simp only [lookupH]
      by_cases h2 : k = k'
      · simp [h2]
      · simp [h2]
    · rw [if_neg h1]
      simp only [lookupH]
      by_cases h2 : k = a
      · rw [if_pos h2, if_pos h2, if_neg (by rintro rfl; exact h1 h2)]
      · rw [if_neg h2, if_neg h2, ih]

theorem setH_keys (k : HKey) (v : PD) (D : HEnts) (x : HKey) : x ∈ (setH k v D).map (·.1) ↔ x = k ∨ x ∈ D.map (·.1) := by
  induction D with
  | nil => simp [setH]
  | cons p D ih =>
    obtain ⟨a, b⟩ := p
    simp only [setH]
    by_cases h1 : k = a
    · subst h1; simp
    · rw [if_neg h1]
      simp only [List.map_cons, List.mem_cons, ih]
      tauto

theorem lookupH_isSome (k : HKey) (D : HEnts) : (∃ e, lookupH k D = some e) ↔ k ∈ D.map (·.1) := by
  induction D with
  | nil => simp [lookupH]
  | cons p D ih =>
    obtain ⟨a, b⟩ := p
    simp only [lookupH, List.map_cons, List.mem_cons]
    by_cases h1 : k = a
    · simp [h1]
    · simp [h1, ih]

/-- the keys of entries that both categories have -/
def keptField (f : String) : Prop := f = "name" ∨ f = "attrs"

theorem catKeys_kept (f : String) (hf : keptField f) (cat fromCat : String) :
    (decide (f.toList ∉ catKeys cat.toList) && decide (f.toList ∈ catKeys fromCat.toList)) = true → cat.toList ≠ cVars ∧ cat.toList ≠ cCoords := by
  intro h
  constructor
  · intro e
    rw [e] at h
    rcases hf with rfl | rfl
    · revert h; rw [show decide ("name".toList ∉ catKeys cVars) = false by decide]; simp
    · revert h; rw [show decide ("attrs".toList ∉ catKeys cVars) = false by decide]; simp
  · intro e
    rw [e] at h
    rcases hf with rfl | rfl
    · revert h; rw [show decide ("name".toList ∉ catKeys cCoords) = false by decide]; simp
    · revert h; rw [show decide ("attrs".toList ∉ catKeys cCoords) = false by decide]; simp

theorem lookupK_filter {α : Type} (P : String → Bool) (k : String) (hk : P k = true) (d : List (String × α)) :
    lookupK k (d.filter (fun p => P p.1)) = lookupK k d := by
  induction d with
  | nil => rfl
  | cons p d ih =>
    obtain ⟨a, b⟩ := p
    by_cases h1 : k = a
    · subst h1; simp [List.filter, hk, lookupK]
    · by_cases h2 : P a = true
      · simp [List.filter, h2, lookupK, h1, ih]
      · simp [List.filter, h2, lookupK, h1, ih]

theorem lookupK_dropH (f : String) (hf : keptField f) (cat fromCat : String) (hc : cat ∈ cfCats) (e : PD) :
    lookupK f (dropH cat fromCat e) = lookupK f e := by
  unfold dropH
  split
  · rfl
  · refine lookupK_filter (fun x => !(decide (x.toList ∉ catKeys cat.toList) && decide (x.toList ∈ catKeys fromCat.toList))) f ?_ e
    have := catKeys_kept f hf cat fromCat
    cases hb : (decide (f.toList ∉ catKeys cat.toList) && decide (f.toList ∈ catKeys fromCat.toList)) with
    | false => rfl
    | true =>
      exfalso
      obtain ⟨h1, h2⟩ := this hb
      simp only [cfCats, List.mem_cons, List.not_mem_nil, or_false] at hc
      rcases hc with rfl | rfl
      · exact h1 rfl
      · exact h2 rfl

theorem fromParent_path (k p : HKey) (hc : k.1 ∈ cfCats) (f : String) (hf : keptField f) (q : List String) (h : Heap) (e pe : PD) (r : Nat) (hr : h r ≠ [])
    (hg : getPath (f :: q) (.dict e) = some (.list r)) : getPath (f :: q) (.dict (fromParent k p h e pe).2) = some (.list r) := by
  have h1 := dictMerge_path r (f :: q) (by simp) e [pe] h hr hg
  unfold fromParent
  rw [getPath_cons] at h1 ⊢
  rw [lookupK_setK, if_neg (by rcases hf with rfl | rfl <;> decide), lookupK_dropH f hf k.1 p.1 hc]
  exact h1

/-- `_process_entry_` of any entry keeps the list of the entry `k` -/
theorem processH_path (k : HKey) (hc : k.1 ∈ cfCats) (f : String) (hf : keptField f) (q : List String) (r : Nat) (n : Nat) :
    ∀ (h : Heap) (D : HEnts) (j : HKey) (out : Heap × HEnts × HEnts), processH n h D j = .ok out → h r ≠ [] →
      (∃ e, lookupH k D = some e ∧ getPath (f :: q) (.dict e) = some (.list r)) →
      (∃ e, lookupH k out.2.1 = some e ∧ getPath (f :: q) (.dict e) = some (.list r)) ∧
      ∀ e, (k, e) ∈ out.2.2 → getPath (f :: q) (.dict e) = some (.list r) := by
  induction n with
  | zero => intro h D j out hp; cases hp
  | succ m ih =>
    intro h D j out hp hr hD
    obtain ⟨m', e, h1, hm, hl, hh, ho⟩ := processH_inv _ h D j out hp
    cases hm
    have hr1 := not_empty_of_prefix (prepH_prefix h h1 j.2 e hh r) hr
    have hself : k = j → getPath (f :: q) (.dict e) = some (.list r) := by
      rintro rfl
      obtain ⟨e', h2, h3⟩ := hD
      rw [hl] at h2
      cases h2
      exact h3
    rcases ho with ho | ⟨p, o, pe, -, hq, -, ho⟩
    · rw [ho]
      refine ⟨hD, ?_⟩
      intro e' he'
      simp only [List.mem_singleton, Prod.mk.injEq] at he'
      rw [he'.2]
      exact hself he'.1
    · obtain ⟨i1, i2⟩ := ih _ _ _ _ hq hr1 hD
      have hr2 := not_empty_of_prefix (processH_prefix m h1 D p o hq r) hr1
      have hnew : k = j → getPath (f :: q) (.dict (fromParent j p o.1 e pe).2) = some (.list r) := fun hkj =>
        fromParent_path j p (by rw [← hkj]; exact hc) f hf q o.1 e pe r hr2 (hself hkj)
      rw [ho]
      refine ⟨?_, ?_⟩
      · simp only [lookupH_setH]
        by_cases hkj : k = j
        · rw [if_pos hkj]; exact ⟨_, rfl, hnew hkj⟩
        · rw [if_neg hkj]; exact i1
      · intro e' he'
        simp only [List.mem_append, List.mem_singleton, Prod.mk.injEq] at he'
        rcases he' with he' | ⟨a, b⟩
        · exact i2 e' he'
        · rw [b]; exact hnew a

theorem processAllH_path (k : HKey) (hc : k.1 ∈ cfCats) (f : String) (hf : keptField f) (q : List String) (r : Nat) (n : Nat) :
    ∀ (ks : List HKey) (h : Heap) (D : HEnts) (out : Heap × HEnts × HEnts), processAllH n h D ks = .ok out → h r ≠ [] →
      (∃ e, lookupH k D = some e ∧ getPath (f :: q) (.dict e) = some (.list r)) →
      (∃ e, lookupH k out.2.1 = some e ∧ getPath (f :: q) (.dict e) = some (.list r)) ∧
      ∀ e, (k, e) ∈ out.2.2 → getPath (f :: q) (.dict e) = some (.list r) := by
  intro ks
  induction ks with
  | nil =>
    intro h D out hp hr hD
    injection hp with hp
    subst hp
    exact ⟨hD, by simp⟩
  | cons j ks ih =>
    intro h D out hp hr hD
    unfold processAllH at hp
    obtain ⟨a, ha, hp⟩ := exceptBind_inv hp
    obtain ⟨b, hb, hp⟩ := exceptBind_inv hp
    injection hp with hp
    subst hp
    obtain ⟨i1, i2⟩ := processH_path k hc f hf q r n h D j a ha hr hD
    obtain ⟨j1, j2⟩ := ih _ _ _ hb (not_empty_of_prefix (processH_prefix n h D j a ha r) hr) i1
    refine ⟨j1, ?_⟩
    intro e he
    rcases List.mem_append.mp he with he | he
    · exact i2 e he
    · exact j2 e he

/-- every name that is processed is yielded, and only known names are -/
theorem processH_items (n : Nat) : ∀ (h : Heap) (D : HEnts) (j : HKey) (out : Heap × HEnts × HEnts), processH n h D j = .ok out →
    (∃ e, (j, e) ∈ out.2.2) ∧ (∀ p ∈ out.2.2, p.1 ∈ D.map (·.1)) ∧ ∀ x, x ∈ out.2.1.map (·.1) ↔ x ∈ D.map (·.1) := by
  induction n with
  | zero => intro h D j out hp; cases hp
  | succ m ih =>
    intro h D j out hp
    obtain ⟨m', e, h1, hm, hl, hh, ho⟩ := processH_inv _ h D j out hp
    cases hm
    have hj := (lookupH_isSome j D).1 ⟨e, hl⟩
    rcases ho with ho | ⟨p, o, pe, -, hq, -, ho⟩
    · rw [ho]
      exact ⟨⟨e, by simp⟩, by simpa using hj, fun x => Iff.rfl⟩
    · obtain ⟨-, i2, i3⟩ := ih _ _ _ _ hq
      rw [ho]
      refine ⟨⟨_, List.mem_append_right _ (List.mem_singleton.mpr rfl)⟩, ?_, ?_⟩
      · intro x hx
        rcases List.mem_append.mp hx with hx | hx
        · exact i2 x hx
        · rw [List.mem_singleton.mp hx]; exact hj
      · intro x
        rw [setH_keys, i3]
        constructor
        · rintro (rfl | h)
          · exact hj
          · exact h
        · exact Or.inr

theorem processAllH_items (n : Nat) : ∀ (ks : List HKey) (h : Heap) (D : HEnts) (out : Heap × HEnts × HEnts), processAllH n h D ks = .ok out →
    (∀ j ∈ ks, ∃ e, (j, e) ∈ out.2.2) ∧ (∀ p ∈ out.2.2, p.1 ∈ D.map (·.1)) ∧ ∀ x, x ∈ out.2.1.map (·.1) ↔ x ∈ D.map (·.1) := by
  intro ks
  induction ks with
  | nil => intro h D out hp; injection hp with hp; subst hp; simp
  | cons j ks ih =>
    intro h D out hp
    unfold processAllH at hp
    obtain ⟨a, ha, hp⟩ := exceptBind_inv hp
    obtain ⟨b, hb, hp⟩ := exceptBind_inv hp
    injection hp with hp
    subst hp
    obtain ⟨⟨e, he⟩, i2, i3⟩ := processH_items n h D j a ha
    obtain ⟨j1, j2, j3⟩ := ih _ _ _ hb
    refine ⟨?_, ?_, fun x => (j3 x).trans (i3 x)⟩
    · intro x hx
      rcases List.mem_cons.mp hx with rfl | hx
      · exact ⟨e, List.mem_append_left _ he⟩
      · obtain ⟨e', he'⟩ := j1 x hx
        exact ⟨e', List.mem_append_right _ he'⟩
    · intro p hp
      rcases List.mem_append.mp hp with hp | hp
      · exact i2 p hp
      · exact (i3 p.1).1 (j2 p hp)

/-- the refilled section -/
theorem refillH_lookup (cat name : String) (items : HEnts) :
    (∀ v, lookupK name (refillH cat items) = some v → ∃ e, ((cat, name), e) ∈ items ∧ v = .dict e) ∧
    ((∃ e, ((cat, name), e) ∈ items) → ∃ v, lookupK name (refillH cat items) = some v) := by
  unfold refillH
  have key : ∀ (l : HEnts) (d : PD),
      (∀ v, lookupK name (l.foldl (fun d p => setK p.1.2 (.dict p.2) d) d) = some v →
        (∃ p ∈ l, p.1.2 = name ∧ v = .dict p.2) ∨ lookupK name d = some v) ∧
      (((∃ p ∈ l, p.1.2 = name) ∨ ∃ v, lookupK name d = some v) → ∃ v, lookupK name (l.foldl (fun d p => setK p.1.2 (.dict p.2) d) d) = some v) := by
    intro l
    induction l with
    | nil => intro d; simp
    | cons p l ih =>
      intro d
      simp only [List.foldl_cons]
      obtain ⟨i1, i2⟩ := ih (setK p.1.2 (.dict p.2) d)
      constructor
      · intro v hv
        rcases i1 v hv with ⟨x, hx, h1, h2⟩ | h1
        · exact Or.inl ⟨x, List.mem_cons_of_mem _ hx, h1, h2⟩
        · rw [lookupK_setK] at h1
          split at h1
          · next hk => injection h1 with h1; exact Or.inl ⟨p, by simp, hk.symm, h1.symm⟩
          · exact Or.inr h1
      · intro hor
        apply i2
        rw [lookupK_setK]
        rcases hor with ⟨x, hx, h1⟩ | ⟨v, hv⟩
        · rcases List.mem_cons.mp hx with rfl | hx
          · right; exact ⟨_, if_pos h1.symm⟩
          · exact Or.inl ⟨x, hx, h1⟩
        · right
          by_cases hk : name = p.1.2
          · exact ⟨_, if_pos hk⟩
          · exact ⟨v, by rw [if_neg hk]; exact hv⟩
  obtain ⟨k1, k2⟩ := key (items.filter (fun p => p.1.1 = cat)) []
  constructor
  · intro v hv
    rcases k1 v hv with ⟨p, hp, h1, h2⟩ | h1
    · obtain ⟨hp1, hp2⟩ := List.mem_filter.mp hp
      refine ⟨p.2, ?_, h2⟩
      have : p = ((cat, name), p.2) := by
        obtain ⟨⟨a, b⟩, c⟩ := p
        simp only [decide_eq_true_eq] at hp2
        simp only at h1
        rw [hp2, h1]
      rwa [← this]
    · cases h1
  · rintro ⟨e, he⟩
    apply k2
    exact Or.inl ⟨((cat, name), e), List.mem_filter.mpr ⟨he, by simp⟩, rfl⟩

/-- the entries of a section -/
theorem lookupH_items (cat name : String) (s e : PD) (h2 : lookupK name s = some (.dict e)) :
    lookupH (cat, name) (s.filterMap (entItem cat)) = some e := by
  induction s with
  | nil => cases h2
  | cons p s ih =>
    obtain ⟨a, v⟩ := p
    simp only [lookupK] at h2
    by_cases ha : name = a
    · subst ha
      rw [if_pos rfl] at h2
      injection h2 with h2
      subst h2
      simp [List.filterMap, lookupH, entItem]
    · rw [if_neg ha] at h2
      have hne : (cat, name) ≠ (cat, a) := fun e => ha (by injection e)
      cases v with
      | dict e' => simp only [List.filterMap_cons, entItem, lookupH, if_neg hne]; exact ih h2
      | _ => simp only [List.filterMap_cons, entItem]; exact ih h2

theorem lookupH_entsOf (cat name : String) (D : PD) (s e : PD) (h1 : lookupK cat D = some (.dict s)) (h2 : lookupK name s = some (.dict e)) :
    lookupH (cat, name) (entsOf cat D) = some e := by
  unfold entsOf
  rw [h1]
  exact lookupH_items cat name s e h2

theorem entItem_some (cat : String) (p : String × PV) (x : HKey × PD) (h : entItem cat p = some x) : x.1 = (cat, p.1) ∧ p.2 = .dict x.2 := by
  obtain ⟨a, v⟩ := p
  cases v with
  | dict e => simp only [entItem, Option.some.injEq] at h; subst h; exact ⟨rfl, rfl⟩
  | _ => cases h

theorem entsOf_cat (cat : String) (D : PD) (p : HKey × PD) (h : p ∈ entsOf cat D) : p.1.1 = cat := by
  unfold entsOf at h
  split at h
  · obtain ⟨x, -, hx⟩ := List.mem_filterMap.mp h
    rw [(entItem_some cat x p hx).1]
  · cases h

theorem lookupH_append (k : HKey) (A B : HEnts) : lookupH k (A ++ B) = (lookupH k A).or (lookupH k B) := by
  induction A with
  | nil => simp [lookupH]
  | cons p A ih =>
    obtain ⟨a, b⟩ := p
    simp only [List.cons_append, lookupH]
    split
    · simp
    · exact ih

/-- `_post_process_` keeps the lists of the merged dictionary -/
theorem postH_path (n : Nat) (h : Heap) (D : PD) (out : Heap × PD) (hp : postH n h D = .ok out) (cat name f : String) (q : List String) (r : Nat)
    (hc : cat ∈ cfCats) (hf : keptField f) (hr : h r ≠ []) (hg : getPath (cat :: name :: f :: q) (.dict D) = some (.list r)) :
    getPath (cat :: name :: f :: q) (.dict out.2) = some (.list r) := by
  obtain ⟨r1, r2, dims, h1, h2, -, h3, h4⟩ := postH_inv n h D out hp
  rw [getPath_cons] at hg
  cases hs : lookupK cat D with
  | none => rw [hs] at hg; cases hg
  | some v =>
    rw [hs, Option.bind_some] at hg
    cases v with
    | dict s =>
      rw [getPath_cons] at hg
      cases he : lookupK name s with
      | none => rw [he] at hg; cases hg
      | some w =>
        rw [he, Option.bind_some] at hg
        cases w with
        | dict e =>
          have hle := lookupH_entsOf cat name D s e hs he
          have hD : lookupH (cat, name) (entsOf "data_vars" D ++ entsOf "coords" D) = some e := by
            rw [lookupH_append]
            simp only [cfCats, List.mem_cons, List.not_mem_nil, or_false] at hc
            rcases hc with rfl | rfl
            · rw [hle]; rfl
            · have : lookupH ("coords", name) (entsOf "data_vars" D) = none := by
                cases hx : lookupH ("coords", name) (entsOf "data_vars" D) with
                | none => rfl
                | some y =>
                  obtain ⟨p, hp1, hp2⟩ := List.mem_map.mp ((lookupH_isSome _ _).1 ⟨y, hx⟩)
                  have := entsOf_cat "data_vars" D p hp1
                  rw [hp2] at this
                  exact absurd (show "coords" = "data_vars" from this) (by decide)
              rw [this, hle]; rfl
          obtain ⟨a1, a2⟩ := processAllH_path (cat, name) hc f hf q r n _ _ _ _ h1 hr ⟨e, hD, hg⟩
          have hr1 := not_empty_of_prefix (processAllH_prefix n _ _ _ _ h1 r) hr
          obtain ⟨b1, b2⟩ := processAllH_path (cat, name) hc f hf q r n _ _ _ _ h2 hr1 a1
          obtain ⟨c1, -, c3⟩ := processAllH_items n _ _ _ _ h1
          obtain ⟨d1, -, -⟩ := processAllH_items n _ _ _ _ h2
          have hall : ∀ e', ((cat, name), e') ∈ r1.2.2 ++ r2.2.2 → getPath (f :: q) (.dict e') = some (.list r) := by
            intro e' he'
            rcases List.mem_append.mp he' with he' | he'
            · exact a2 e' he'
            · exact b2 e' he'
          have hex : ∃ e', ((cat, name), e') ∈ r1.2.2 ++ r2.2.2 := by
            simp only [cfCats, List.mem_cons, List.not_mem_nil, or_false] at hc
            rcases hc with rfl | rfl
            · obtain ⟨e', he'⟩ := c1 ("data_vars", name) (List.mem_filter.mpr ⟨(lookupH_isSome _ _).1 ⟨e, hle⟩, by simp⟩)
              exact ⟨e', List.mem_append_left _ he'⟩
            · have : ("coords", name) ∈ r1.2.1.map (·.1) := (c3 _).2 ((lookupH_isSome _ _).1 ⟨e, hD⟩)
              obtain ⟨e', he'⟩ := d1 ("coords", name) (List.mem_filter.mpr ⟨this, by simp⟩)
              exact ⟨e', List.mem_append_right _ he'⟩
          obtain ⟨v, hv⟩ := (refillH_lookup cat name (r1.2.2 ++ r2.2.2)).2 hex
          obtain ⟨e', he1, he2⟩ := (refillH_lookup cat name (r1.2.2 ++ r2.2.2)).1 v hv
          have hsec : lookupK cat out.2 = some (.dict (refillH cat (r1.2.2 ++ r2.2.2))) := by
            rw [h4, lookupK_setK, lookupK_setK]
            simp only [cfCats, List.mem_cons, List.not_mem_nil, or_false] at hc
            rcases hc with rfl | rfl
            · rw [if_neg (by decide), if_pos rfl]
            · rw [if_pos rfl]
          rw [getPath_cons, hsec, Option.bind_some, getPath_cons, hv, Option.bind_some, he2]
          exact hall e' he1
        | _ => cases hg
    | _ => cases hg

/-- **C128** (own values first): whatever was loaded before, the names and the attribute lists that the first
configuration gives to an item come first, in order, in the specifications of this item. -/
theorem C128_own_first_partial (n : Nat) (st : CfSess) (s : CfSrc) (rest : List CfSrc) (d : PD) (hs : srcDict st s = .ok d)
    (out : CfSess × PD) (hp : loadSpecs n st (s :: rest) = .ok out) (cat name f : String) (q : List String) (r : Nat)
    (hc : cat ∈ cfCats) (hf : keptField f) (hg : getPath (cat :: name :: f :: q) (.dict d) = some (.list r)) (hr : st.heap r ≠ []) :
    getPath (cat :: name :: f :: q) (.dict out.2) = some (.list r) ∧ st.heap r <+: out.1.heap r := by
  refine ⟨?_, C128_lists_grow_partial n st _ out hp r⟩
  obtain ⟨dd, o, h1, h2, -, h4⟩ := loadSpecs_inv n st _ out hp
  unfold srcDicts at h1
  rw [hs] at h1
  obtain ⟨dd', -, h1⟩ := exceptBind_inv (show (srcDicts st rest).bind (fun dd => .ok (d :: dd)) = .ok dd from h1)
  injection h1 with h1
  subst h1
  rw [h4]
  refine postH_path n _ _ o h2 cat name f q r hc hf (not_empty_of_prefix (C95_inputs_extended_partial cfMergeOpts st.heap _ r) hr) ?_
  exact dictMerge_path r _ (by simp) d dd' st.heap hr hg

/-! ### the known names -/

/-- a validated configuration: dictionaries have distinct keys, the two sections are there and their items are dictionaries -/
def ValidCfg (d : PD) : Prop :=
  (d.map (·.1)).Nodup ∧ ∀ cat ∈ cfCats, ∃ s, lookupK cat d = some (.dict s) ∧ (s.map (·.1)).Nodup ∧ ∀ n v, lookupK n s = some v → ∃ e, v = .dict e

/-- the configuration, or the specifications, have an item of this name in this category -/
def KnownIn (cat n : String) (d : PD) : Prop := ∃ s e, lookupK cat d = some (.dict s) ∧ lookupK n s = some (.dict e)

theorem mergeItems_get (o : MergeOpts) (k : String) : ∀ (items : List (String × PV)) (h : Heap) (out : PD), (items.map (·.1)).Nodup →
    ∃ h', lookupK k (mergeItems o h out items).2 = (lookupK k items).elim (lookupK k out) (combine o h' (lookupK k out)) := by
  intro items
  induction items with
  | nil => intro h out _; exact ⟨h, rfl⟩
  | cons kv items ih =>
    intro h out hn
    simp only [List.map_cons, List.nodup_cons] at hn
    obtain ⟨h', hh⟩ := ih (mergeItem o h out kv).1 (mergeItem o h out kv).2 hn.2
    unfold mergeItems
    rw [show mergeItems o (mergeItem o h out kv).1 (mergeItem o h out kv).2 items = mergeItems o (mergeItem o h out kv).1 (mergeItem o h out kv).2 items from rfl] at hh
    simp only
    rw [hh, mergeItem_lookup]
    obtain ⟨k', v⟩ := kv
    by_cases hk : k = k'
    · subst hk
      refine ⟨h, ?_⟩
      rw [(lookupK_none_iff k items).2 hn.1]
      simp [lookupK]
    · exact ⟨h', by simp [lookupK, hk]⟩

theorem mergeVal_dict (h : Heap) (a b : PD) : (mergeVal cfMergeOpts h (.dict a) (.dict b)).2 = .dict (mergeItems cfMergeOpts h a b).2 := by
  simp [mergeVal, cfMergeOpts, initFrom]

/-- the section of the accumulated dictionary: absent, or made of dictionaries with the names `P` -/
def SecHas (cat : String) (P : String → Prop) (out : PD) : Prop :=
  (lookupK cat out = none ∧ ∀ n, ¬ P n) ∨
  ∃ s, lookupK cat out = some (.dict s) ∧ (∀ n v, lookupK n s = some v → ∃ e, v = .dict e) ∧ ∀ n, (∃ v, lookupK n s = some v) ↔ P n

theorem mergeItems_sec (cat : String) (hc : cat ∈ cfCats) (P : String → Prop) (d : PD) (hd : ValidCfg d) (h : Heap) (out : PD) (ho : SecHas cat P out) :
    SecHas cat (fun n => P n ∨ KnownIn cat n d) (mergeItems cfMergeOpts h out d).2 := by
  obtain ⟨hn, hs⟩ := hd
  obtain ⟨b, hb, hbn, hbd⟩ := hs cat hc
  have hknown : ∀ n, KnownIn cat n d ↔ ∃ v, lookupK n b = some v := by
    intro n
    constructor
    · rintro ⟨s, e, h1, h2⟩
      rw [hb] at h1
      cases h1
      exact ⟨_, h2⟩
    · rintro ⟨v, hv⟩
      obtain ⟨e, rfl⟩ := hbd n v hv
      exact ⟨b, e, hb, hv⟩
  obtain ⟨h', hh⟩ := mergeItems_get cfMergeOpts cat d h out hn
  rw [hb] at hh
  simp only [Option.elim_some] at hh
  rcases ho with ⟨h1, h2⟩ | ⟨a, h1, h2, h3⟩
  · rw [h1] at hh
    right
    refine ⟨b, by rw [hh]; rfl, hbd, ?_⟩
    intro n
    show _ ↔ (P n ∨ KnownIn cat n d)
    rw [hknown]
    simp [h2]
  · rw [h1] at hh
    right
    by_cases hae : a = []
    · subst hae
      refine ⟨b, by rw [hh]; rfl, hbd, ?_⟩
      intro n
      show _ ↔ (P n ∨ KnownIn cat n d)
      rw [hknown]
      have := h3 n
      simp only [lookupK, reduceCtorEq, exists_false, false_iff] at this
      simp [this]
    · have hc2 : combine cfMergeOpts h' (some (.dict a)) (.dict b) = some (.dict (mergeItems cfMergeOpts h' a b).2) := by
        have hne : isEmptyPV h' (.dict a) = false := by
          cases a with
          | nil => exact absurd rfl hae
          | cons x a => rfl
        simp only [combine, hne, Bool.and_false, mergeVal_dict]
        rfl
      rw [hc2] at hh
      have key : ∀ n, ∃ h'', lookupK n (mergeItems cfMergeOpts h' a b).2 = (lookupK n b).elim (lookupK n a) (combine cfMergeOpts h'' (lookupK n a)) :=
        fun n => mergeItems_get cfMergeOpts n b h' a hbn
      have hval : ∀ n, (∃ v, lookupK n (mergeItems cfMergeOpts h' a b).2 = some v) ↔ (∃ v, lookupK n a = some v) ∨ ∃ v, lookupK n b = some v := by
        intro n
        obtain ⟨h'', hk⟩ := key n
        rw [hk]
        cases hb2 : lookupK n b with
        | none => simp
        | some w =>
          simp only [Option.elim_some]
          cases ha2 : lookupK n a with
          | none => simp [combine, cfMergeOpts]
          | some u =>
            obtain ⟨x, hx⟩ := combine_some cfMergeOpts h'' u w
            rw [hx]; simp
      refine ⟨_, hh, ?_, ?_⟩
      · intro n v hv
        obtain ⟨h'', hk⟩ := key n
        rw [hk] at hv
        cases hb2 : lookupK n b with
        | none => rw [hb2] at hv; exact h2 n v hv
        | some w =>
          rw [hb2] at hv
          obtain ⟨eb, rfl⟩ := hbd n w hb2
          simp only [Option.elim_some] at hv
          cases ha2 : lookupK n a with
          | none => rw [ha2] at hv; simp only [combine, cfMergeOpts] at hv; exact ⟨eb, by simpa using hv.symm⟩
          | some u =>
            rw [ha2] at hv
            obtain ⟨ea, rfl⟩ := h2 n u ha2
            simp only [combine, mergeVal_dict] at hv
            split at hv
            · cases hv
              next h0 => exact absurd h0 (by simp [cfMergeOpts])
            · split at hv
              · exact ⟨eb, by simpa using hv.symm⟩
              · exact ⟨_, by simpa using hv.symm⟩
      · intro n
        rw [hval, h3, ← hknown]

theorem mergeAll_sec (cat : String) (hc : cat ∈ cfCats) : ∀ (dd : List PD) (hd : ∀ d ∈ dd, ValidCfg d) (h : Heap) (out : PD) (P : String → Prop),
    SecHas cat P out → SecHas cat (fun n => P n ∨ ∃ d ∈ dd, KnownIn cat n d) (mergeAll cfMergeOpts h out dd).2 := by
  intro dd
  induction dd with
  | nil =>
    intro _ h out P ho
    have : (fun n => P n ∨ ∃ d ∈ ([] : List PD), KnownIn cat n d) = P := by funext n; simp
    rw [this]; exact ho
  | cons d dd ih =>
    intro hd h out P ho
    unfold mergeAll
    have := ih (fun x hx => hd x (List.mem_cons_of_mem _ hx)) (mergeItems cfMergeOpts h out d).1 (mergeItems cfMergeOpts h out d).2 _
      (mergeItems_sec cat hc P d (hd d (by simp)) h out ho)
    have e : (fun n => (P n ∨ KnownIn cat n d) ∨ ∃ x ∈ dd, KnownIn cat n x) = (fun n => P n ∨ ∃ x ∈ d :: dd, KnownIn cat n x) := by
      funext n; simp [or_assoc]
    rw [e] at this
    exact this

theorem dictMerge_sec (cat : String) (hc : cat ∈ cfCats) (dd : List PD) (hd : ∀ d ∈ dd, ValidCfg d) (h : Heap) :
    SecHas cat (fun n => ∃ d ∈ dd, KnownIn cat n d) (dictMerge cfMergeOpts h dd).2 := by
  have := mergeAll_sec cat hc dd hd h [] (fun _ => False) (Or.inl ⟨rfl, fun _ h => h⟩)
  simpa [dictMerge] using this

theorem mem_entsOf (cat n : String) (D : PD) : (cat, n) ∈ (entsOf cat D).map (·.1) → KnownIn cat n D ∨ ∃ s, lookupK cat D = some (.dict s) ∧ n ∈ s.map (·.1) := by
  intro h
  right
  unfold entsOf at h
  split at h
  · next s hs =>
    obtain ⟨x, hx, hx2⟩ := List.mem_map.mp h
    obtain ⟨y, hy, hy2⟩ := List.mem_filterMap.mp hx
    obtain ⟨a, b⟩ := entItem_some cat y x hy2
    refine ⟨s, hs, List.mem_map.mpr ⟨y, hy, ?_⟩⟩
    rw [a] at hx2
    injection hx2
  · cases h

theorem postH_known (n : Nat) (h : Heap) (D : PD) (out : Heap × PD) (hp : postH n h D = .ok out) (cat : String) (hc : cat ∈ cfCats)
    (P : String → Prop) (hP : SecHas cat P D) (name : String) : KnownIn cat name out.2 ↔ P name := by
  obtain ⟨r1, r2, dims, h1, h2, -, h3, h4⟩ := postH_inv n h D out hp
  have hsec : lookupK cat out.2 = some (.dict (refillH cat (r1.2.2 ++ r2.2.2))) := by
    rw [h4, lookupK_setK, lookupK_setK]
    simp only [cfCats, List.mem_cons, List.not_mem_nil, or_false] at hc
    rcases hc with rfl | rfl
    · rw [if_neg (by decide), if_pos rfl]
    · rw [if_pos rfl]
  obtain ⟨c1, c2, c3⟩ := processAllH_items n _ _ _ _ h1
  obtain ⟨d1, d2, -⟩ := processAllH_items n _ _ _ _ h2
  have hin : ∀ e, ((cat, name), e) ∈ r1.2.2 ++ r2.2.2 → (cat, name) ∈ (entsOf "data_vars" D ++ entsOf "coords" D).map (·.1) := by
    intro e he
    rcases List.mem_append.mp he with he | he
    · exact c2 _ he
    · exact (c3 _).1 (d2 _ he)
  have hcat : (cat, name) ∈ (entsOf "data_vars" D ++ entsOf "coords" D).map (·.1) ↔ (cat, name) ∈ (entsOf cat D).map (·.1) := by
    rw [List.map_append, List.mem_append]
    have other : ∀ c, c ≠ cat → (cat, name) ∉ (entsOf c D).map (·.1) := by
      intro c hne hm
      obtain ⟨x, hx, hx2⟩ := List.mem_map.mp hm
      have := entsOf_cat c D x hx
      rw [hx2] at this
      exact hne this.symm
    simp only [cfCats, List.mem_cons, List.not_mem_nil, or_false] at hc
    rcases hc with rfl | rfl
    · exact ⟨fun h => h.resolve_right (other "coords" (by decide)), Or.inl⟩
    · exact ⟨fun h => h.resolve_left (other "data_vars" (by decide)), Or.inr⟩
  constructor
  · rintro ⟨s, e, hs, he⟩
    rw [hsec] at hs
    injection hs with hs
    injection hs with hs
    subst hs
    obtain ⟨e', he', -⟩ := (refillH_lookup cat name _).1 _ he
    have hm := hcat.1 (hin e' he')
    rcases hP with ⟨g1, -⟩ | ⟨s, g1, g2, g3⟩
    · exfalso
      unfold entsOf at hm
      rw [g1] at hm
      simp at hm
    · rw [← g3]
      have : name ∈ s.map (·.1) := by
        rcases mem_entsOf cat name D hm with ⟨s', e'', k1, k2⟩ | ⟨s', k1, k2⟩
        · rw [g1] at k1; injection k1 with k1; injection k1 with k1; subst k1
          exact List.mem_map.mpr ⟨_, lookupK_mem _ _ _ k2, rfl⟩
        · rw [g1] at k1; injection k1 with k1; injection k1 with k1; subst k1
          exact k2
      cases hl : lookupK name s with
      | none => exact absurd this ((lookupK_none_iff name s).1 hl)
      | some v => exact ⟨v, rfl⟩
  · intro hname
    rcases hP with ⟨-, g2⟩ | ⟨s, g1, g2, g3⟩
    · exact absurd hname (g2 name)
    · obtain ⟨v, hv⟩ := (g3 name).2 hname
      obtain ⟨e, rfl⟩ := g2 name v hv
      have hle := lookupH_entsOf cat name D s e g1 hv
      have hm := (lookupH_isSome _ _).1 ⟨e, hle⟩
      have hex : ∃ e', ((cat, name), e') ∈ r1.2.2 ++ r2.2.2 := by
        have hc' := hc
        simp only [cfCats, List.mem_cons, List.not_mem_nil, or_false] at hc'
        rcases hc' with rfl | rfl
        · obtain ⟨e', he'⟩ := c1 ("data_vars", name) (List.mem_filter.mpr ⟨hm, by simp⟩)
          exact ⟨e', List.mem_append_left _ he'⟩
        · obtain ⟨e', he'⟩ := d1 ("coords", name) (List.mem_filter.mpr ⟨(c3 _).2 (hcat.2 hm), by simp⟩)
          exact ⟨e', List.mem_append_right _ he'⟩
      obtain ⟨v, hv2⟩ := (refillH_lookup cat name _).2 hex
      obtain ⟨e', -, rfl⟩ := (refillH_lookup cat name _).1 v hv2
      exact ⟨_, e', hsec, hv2⟩

/-- **C128** (names): the items that a load gives are exactly those of the configurations that are loaded. -/
theorem C128_names (n : Nat) (st : CfSess) (srcs : List CfSrc) (dd : List PD) (hs : srcDicts st srcs = .ok dd) (hd : ∀ d ∈ dd, ValidCfg d)
    (out : CfSess × PD) (hp : loadSpecs n st srcs = .ok out) (cat : String) (hc : cat ∈ cfCats) (name : String) :
    KnownIn cat name out.2 ↔ ∃ d ∈ dd, KnownIn cat name d := by
  obtain ⟨dd', r, h1, h2, -, h4⟩ := loadSpecs_inv n st srcs out hp
  rw [hs] at h1
  cases h1
  rw [h4]
  exact postH_known n _ _ r h2 cat hc _ (dictMerge_sec cat hc dd hd st.heap) name

/-! ### known dimensions -/

theorem addDimsH_names (dims : PD) (h h' : Heap) (name : String) (e : PD) (hp : addDimsH dims h name e = .ok h') (t : String) (r rd : Nat)
    (ht : getPath ["attrs", "axis"] (.dict e) = some (.atom (.str t))) (hne : t ≠ "") (hr : lookupK "name" e = some (.list r))
    (hd : lookupK (String.ofList (lower t.toList)) dims = some (.list rd)) : Atom.str name ∈ h' rd ∧ ∀ x ∈ h r, x ∈ h' rd := by
  unfold addDimsH at hp
  obtain ⟨a, ha, hp⟩ := exceptBind_inv hp
  obtain ⟨ax, hax, hp⟩ := exceptBind_inv hp
  have h1 : ax = .atom (.str t) := by
    rw [getPath_cons] at ht
    unfold subK at ha
    cases hl : lookupK "attrs" e with
    | none => rw [hl] at ha; cases ha
    | some v =>
      rw [hl] at ha ht
      cases v with
      | dict d =>
        cases ha
        rw [Option.bind_some, getPath_cons] at ht
        unfold itemK at hax
        cases hl2 : lookupK "axis" a with
        | none => rw [hl2] at hax; cases hax
        | some w =>
          rw [hl2] at hax ht
          cases hax
          exact Option.some.inj ht
      | _ => cases ha
  subst h1
  have hemp : isEmptyPV h (.atom (.str t)) = false := by
    simp only [isEmptyPV]
    simpa using hne
  rw [hemp] at hp
  simp only [Bool.false_eq_true, if_false] at hp
  obtain ⟨l, hl, hp⟩ := exceptBind_inv hp
  have h2 : l = .list r := by
    unfold itemK at hl
    rw [hr] at hl
    cases hl; rfl
  subst h2
  obtain ⟨d, hd', hp⟩ := exceptBind_inv hp
  have h3 : d = .list rd := by
    unfold itemK at hd'
    rw [hd] at hd'
    cases hd'; rfl
  subst h3
  injection hp with hp
  subst hp
  unfold appendTo
  simp only [if_true]
  exact ⟨by simp, fun x hx => by simp [hx]⟩

theorem allDimsH_names (dims : PD) : ∀ (l : List (String × PV)) (h h' : Heap), allDimsH dims h l = .ok h' → ∀ (name : String) (e : PD), (name, PV.dict e) ∈ l →
    ∀ (t : String) (r rd : Nat), getPath ["attrs", "axis"] (.dict e) = some (.atom (.str t)) → t ≠ "" → lookupK "name" e = some (.list r) →
    lookupK (String.ofList (lower t.toList)) dims = some (.list rd) → Atom.str name ∈ h' rd ∧ ∀ x ∈ h r, x ∈ h' rd := by
  intro l
  induction l with
  | nil => intro h h' _ name e hm; cases hm
  | cons p l ih =>
    intro h h' hp name e hm t r rd ht hne hr hd
    obtain ⟨n, v⟩ := p
    cases v with
    | dict e' =>
      unfold allDimsH at hp
      obtain ⟨h1, h2, hp'⟩ := exceptBind_inv hp
      rcases List.mem_cons.mp hm with hm | hm
      · cases hm
        obtain ⟨a, b⟩ := addDimsH_names dims h h1 name e h2 t r rd ht hne hr hd
        have hpre := allDimsH_prefix dims l h1 h' hp' rd
        exact ⟨hpre.subset a, fun x hx => hpre.subset (b x hx)⟩
      · obtain ⟨a, b⟩ := ih h1 h' hp' name e hm t r rd ht hne hr hd
        exact ⟨a, fun x hx => b x ((addDimsH_prefix dims h h1 n e' h2 r).subset hx)⟩
    | _ => cases hp

/-- **C128** (known dimensions): after a load, the name of a coordinate that has an axis, and its names of before the load, are
among the known dimensions of this axis. -/
theorem C128_dims (n : Nat) (st : CfSess) (srcs : List CfSrc) (out : CfSess × PD) (hp : loadSpecs n st srcs = .ok out) (name t : String) (r rd : Nat)
    (ht : getPath ["coords", name, "attrs", "axis"] (.dict out.2) = some (.atom (.str t))) (hne : t ≠ "")
    (hr : getPath ["coords", name, "name"] (.dict out.2) = some (.list r))
    (hd : getPath ["dims", String.ofList (lower t.toList)] (.dict out.2) = some (.list rd)) :
    Atom.str name ∈ out.1.heap rd ∧ ∀ x ∈ st.heap r, x ∈ out.1.heap rd := by
  obtain ⟨dd, q, -, h2, h3, h4⟩ := loadSpecs_inv n st srcs out hp
  obtain ⟨r1, r2, dims, g1, g2, g0, g3, g4⟩ := postH_inv n _ _ q h2
  rw [h4, g4] at ht hr hd
  rw [getPath_cons, lookupK_setK, if_pos rfl, Option.bind_some] at ht hr
  rw [getPath_cons, lookupK_setK, if_neg (by decide), lookupK_setK, if_neg (by decide)] at hd
  have hdims : lookupK "dims" (dictMerge cfMergeOpts st.heap dd).2 = some (.dict dims) := by
    unfold subK at g0
    cases hl : lookupK "dims" (dictMerge cfMergeOpts st.heap dd).2 with
    | none => rw [hl] at g0; cases g0
    | some v =>
      rw [hl] at g0
      cases v with
      | dict d => cases g0; rfl
      | _ => cases g0
  rw [hdims, Option.bind_some, getPath_cons] at hd
  rw [getPath_cons] at ht hr
  cases hl : lookupK name (refillH "coords" (r1.2.2 ++ r2.2.2)) with
  | none => rw [hl] at ht; cases ht
  | some v =>
    rw [hl, Option.bind_some] at ht hr
    cases v with
    | dict e =>
      have hm := lookupK_mem _ _ _ hl
      have hr' : lookupK "name" e = some (.list r) := by
        rw [getPath_cons] at hr
        cases h5 : lookupK "name" e with
        | none => rw [h5] at hr; cases hr
        | some w => rw [h5] at hr; exact hr
      have hd' : lookupK (String.ofList (lower t.toList)) dims = some (.list rd) := by
        cases h5 : lookupK (String.ofList (lower t.toList)) dims with
        | none => rw [h5] at hd; cases hd
        | some w => rw [h5] at hd; exact hd
      obtain ⟨a, b⟩ := allDimsH_names dims _ _ _ g3 name e hm t r rd ht hne hr' hd'
      rw [h3]
      refine ⟨a, fun x hx => b x ?_⟩
      have p1 := C95_inputs_extended_partial cfMergeOpts st.heap dd r
      exact (p1.trans ((processAllH_prefix n _ _ _ _ g1 r).trans (processAllH_prefix n _ _ _ _ g2 r))).subset hx
    | _ => cases ht

/-! ### long names -/

theorem prepH_long (h h' : Heap) (name : String) (e : PD) (hp : prepH h name e = .ok h') (r : Nat)
    (hg : getPath ["attrs", "long_name"] (.dict e) = some (.list r)) : h' r ≠ [] := by
  unfold prepH at hp
  obtain ⟨a, ha, hp⟩ := exceptBind_inv hp
  obtain ⟨ln, hln, hp⟩ := exceptBind_inv hp
  have h1 : ln = .list r := by
    rw [getPath_cons] at hg
    unfold subK at ha
    cases hl : lookupK "attrs" e with
    | none => rw [hl] at ha; cases ha
    | some v =>
      rw [hl] at ha hg
      cases v with
      | dict d =>
        cases ha
        rw [Option.bind_some, getPath_cons] at hg
        unfold itemK at hln
        cases hl2 : lookupK "long_name" a with
        | none => rw [hl2] at hln; cases hln
        | some w =>
          rw [hl2] at hln hg
          cases hln
          exact Option.some.inj hg
      | _ => cases ha
  subst h1
  split at hp
  · obtain ⟨sn, -, hp⟩ := exceptBind_inv hp
    obtain ⟨txt, -, hp⟩ := exceptBind_inv hp
    injection hp with hp
    subst hp
    simp [appendTo]
  · next hne =>
    injection hp with hp
    subst hp
    intro e'
    apply hne
    simp [isEmptyPV, e']

/-- `_process_entry_` of any entry gives a long name to the entry `k` when it yields it -/
theorem processH_long (k : HKey) (hc : k.1 ∈ cfCats) (r : Nat) (n : Nat) :
    ∀ (h : Heap) (D : HEnts) (j : HKey) (out : Heap × HEnts × HEnts), processH n h D j = .ok out →
      (∃ e, lookupH k D = some e ∧ getPath ["attrs", "long_name"] (.dict e) = some (.list r)) →
      (∃ e, lookupH k out.2.1 = some e ∧ getPath ["attrs", "long_name"] (.dict e) = some (.list r)) ∧
      ∀ e, (k, e) ∈ out.2.2 → getPath ["attrs", "long_name"] (.dict e) = some (.list r) ∧ out.1 r ≠ [] := by
  induction n with
  | zero => intro h D j out hp; cases hp
  | succ m ih =>
    intro h D j out hp hD
    obtain ⟨m', e, h1, hm, hl, hh, ho⟩ := processH_inv _ h D j out hp
    cases hm
    have hself : k = j → getPath ["attrs", "long_name"] (.dict e) = some (.list r) := by
      rintro rfl
      obtain ⟨e', h2, h3⟩ := hD
      rw [hl] at h2
      cases h2
      exact h3
    have hr1 : k = j → h1 r ≠ [] := fun hkj => prepH_long h h1 j.2 e hh r (hself hkj)
    rcases ho with ho | ⟨p, o, pe, -, hq, -, ho⟩
    · rw [ho]
      refine ⟨hD, ?_⟩
      intro e' he'
      simp only [List.mem_singleton, Prod.mk.injEq] at he'
      rw [he'.2]
      exact ⟨hself he'.1, hr1 he'.1⟩
    · obtain ⟨i1, i2⟩ := ih _ _ _ _ hq hD
      have hr2 : k = j → o.1 r ≠ [] := fun hkj => not_empty_of_prefix (processH_prefix m h1 D p o hq r) (hr1 hkj)
      have hnew : k = j → getPath ["attrs", "long_name"] (.dict (fromParent j p o.1 e pe).2) = some (.list r) := fun hkj =>
        fromParent_path j p (by rw [← hkj]; exact hc) "attrs" (Or.inr rfl) ["long_name"] o.1 e pe r (hr2 hkj) (hself hkj)
      have hpre := fromParent_prefix j p o.1 e pe r
      rw [ho]
      refine ⟨?_, ?_⟩
      · simp only [lookupH_setH]
        by_cases hkj : k = j
        · rw [if_pos hkj]; exact ⟨_, rfl, hnew hkj⟩
        · rw [if_neg hkj]; exact i1
      · intro e' he'
        simp only [List.mem_append, List.mem_singleton, Prod.mk.injEq] at he'
        rcases he' with he' | ⟨a, b⟩
        · exact ⟨(i2 e' he').1, not_empty_of_prefix hpre (i2 e' he').2⟩
        · rw [b]; exact ⟨hnew a, not_empty_of_prefix hpre (hr2 a)⟩

theorem processAllH_long (k : HKey) (hc : k.1 ∈ cfCats) (r : Nat) (n : Nat) :
    ∀ (ks : List HKey) (h : Heap) (D : HEnts) (out : Heap × HEnts × HEnts), processAllH n h D ks = .ok out →
      (∃ e, lookupH k D = some e ∧ getPath ["attrs", "long_name"] (.dict e) = some (.list r)) →
      (∃ e, lookupH k out.2.1 = some e ∧ getPath ["attrs", "long_name"] (.dict e) = some (.list r)) ∧
      ∀ e, (k, e) ∈ out.2.2 → getPath ["attrs", "long_name"] (.dict e) = some (.list r) ∧ out.1 r ≠ [] := by
  intro ks
  induction ks with
  | nil =>
    intro h D out hp hD
    injection hp with hp
    subst hp
    exact ⟨hD, by simp⟩
  | cons j ks ih =>
    intro h D out hp hD
    unfold processAllH at hp
    obtain ⟨a, ha, hp⟩ := exceptBind_inv hp
    obtain ⟨b, hb, hp⟩ := exceptBind_inv hp
    injection hp with hp
    subst hp
    obtain ⟨i1, i2⟩ := processH_long k hc r n h D j a ha hD
    obtain ⟨j1, j2⟩ := ih _ _ _ hb i1
    refine ⟨j1, ?_⟩
    intro e he
    rcases List.mem_append.mp he with he | he
    · exact ⟨(i2 e he).1, not_empty_of_prefix (processAllH_prefix n _ _ _ _ hb r) (i2 e he).2⟩
    · exact j2 e he

theorem entry_of_path (cat name : String) (q : List String) (r : Nat) (D : PD) (hc : cat ∈ cfCats) (hg : getPath (cat :: name :: q) (.dict D) = some (.list r)) (hq : q ≠ []) :
    ∃ e, lookupH (cat, name) (entsOf "data_vars" D ++ entsOf "coords" D) = some e ∧ getPath q (.dict e) = some (.list r) := by
  rw [getPath_cons] at hg
  cases hs : lookupK cat D with
  | none => rw [hs] at hg; cases hg
  | some v =>
    rw [hs, Option.bind_some] at hg
    cases v with
    | dict s =>
      rw [getPath_cons] at hg
      cases he : lookupK name s with
      | none => rw [he] at hg; cases hg
      | some w =>
        rw [he, Option.bind_some] at hg
        cases w with
        | dict e =>
          have hle := lookupH_entsOf cat name D s e hs he
          refine ⟨e, ?_, hg⟩
          rw [lookupH_append]
          simp only [cfCats, List.mem_cons, List.not_mem_nil, or_false] at hc
          rcases hc with rfl | rfl
          · rw [hle]; rfl
          · have : lookupH ("coords", name) (entsOf "data_vars" D) = none := by
              cases hx : lookupH ("coords", name) (entsOf "data_vars" D) with
              | none => rfl
              | some y =>
                obtain ⟨p, hp1, hp2⟩ := List.mem_map.mp ((lookupH_isSome _ _).1 ⟨y, hx⟩)
                have := entsOf_cat "data_vars" D p hp1
                rw [hp2] at this
                exact absurd (show "coords" = "data_vars" from this) (by decide)
            rw [this, hle]; rfl
        | _ => cases q with
          | nil => exact absurd rfl hq
          | cons _ _ => cases hg
    | _ => cases hg

/-- **C128** (long names): after a load, every variable and coordinate has a long name, even when no configuration gives one. Here `D` is the merge
of the configurations, in which the item has a list of long names, which may be empty. -/
theorem C128_long_name (n : Nat) (st : CfSess) (srcs : List CfSrc) (dd : List PD) (hs : srcDicts st srcs = .ok dd) (out : CfSess × PD)
    (hp : loadSpecs n st srcs = .ok out) (cat name : String) (hc : cat ∈ cfCats) (r : Nat)
    (hg : getPath [cat, name, "attrs", "long_name"] (.dict (dictMerge cfMergeOpts st.heap dd).2) = some (.list r)) :
    getPath [cat, name, "attrs", "long_name"] (.dict out.2) = some (.list r) ∧ out.1.heap r ≠ [] := by
  obtain ⟨dd', q, g0, h2, h3, h4⟩ := loadSpecs_inv n st srcs out hp
  rw [hs] at g0
  cases g0
  rw [h3, h4]
  obtain ⟨r1, r2, dims, h1, h2', -, h3', h4'⟩ := postH_inv n _ _ q h2
  obtain ⟨e, hD, hge⟩ := entry_of_path cat name ["attrs", "long_name"] r _ hc hg (by simp)
  obtain ⟨a1, a2⟩ := processAllH_long (cat, name) hc r n _ _ _ _ h1 ⟨e, hD, hge⟩
  obtain ⟨b1, b2⟩ := processAllH_long (cat, name) hc r n _ _ _ _ h2' a1
  obtain ⟨c1, -, c3⟩ := processAllH_items n _ _ _ _ h1
  obtain ⟨d1, -, -⟩ := processAllH_items n _ _ _ _ h2'
  have hall : ∀ e', ((cat, name), e') ∈ r1.2.2 ++ r2.2.2 → getPath ["attrs", "long_name"] (.dict e') = some (.list r) ∧ q.1 r ≠ [] := by
    intro e' he'
    have p3 := allDimsH_prefix dims _ _ _ h3' r
    rcases List.mem_append.mp he' with he' | he'
    · exact ⟨(a2 e' he').1, not_empty_of_prefix ((processAllH_prefix n _ _ _ _ h2' r).trans p3) (a2 e' he').2⟩
    · exact ⟨(b2 e' he').1, not_empty_of_prefix p3 (b2 e' he').2⟩
  have hex : ∃ e', ((cat, name), e') ∈ r1.2.2 ++ r2.2.2 := by
    have hm := (lookupH_isSome _ _).1 ⟨e, hD⟩
    simp only [cfCats, List.mem_cons, List.not_mem_nil, or_false] at hc
    rcases hc with rfl | rfl
    · have hm' : ("data_vars", name) ∈ (entsOf "data_vars" (dictMerge cfMergeOpts st.heap dd).2).map (·.1) := by
        rw [List.map_append, List.mem_append] at hm
        rcases hm with hm | hm
        · exact hm
        · obtain ⟨p, hp1, hp2⟩ := List.mem_map.mp hm
          have := entsOf_cat "coords" _ p hp1
          rw [hp2] at this
          exact absurd (show "data_vars" = "coords" from this) (by decide)
      obtain ⟨e', he'⟩ := c1 ("data_vars", name) (List.mem_filter.mpr ⟨hm', by simp⟩)
      exact ⟨e', List.mem_append_left _ he'⟩
    · obtain ⟨e', he'⟩ := d1 ("coords", name) (List.mem_filter.mpr ⟨(c3 _).2 hm, by simp⟩)
      exact ⟨e', List.mem_append_right _ he'⟩
  obtain ⟨v, hv⟩ := (refillH_lookup cat name (r1.2.2 ++ r2.2.2)).2 hex
  obtain ⟨e', he1, he2⟩ := (refillH_lookup cat name (r1.2.2 ++ r2.2.2)).1 v hv
  have hsec : lookupK cat q.2 = some (.dict (refillH cat (r1.2.2 ++ r2.2.2))) := by
    rw [h4', lookupK_setK, lookupK_setK]
    simp only [cfCats, List.mem_cons, List.not_mem_nil, or_false] at hc
    rcases hc with rfl | rfl
    · rw [if_neg (by decide), if_pos rfl]
    · rw [if_pos rfl]
  refine ⟨?_, (hall e' he1).2⟩
  rw [getPath_cons, hsec, Option.bind_some, getPath_cons, hv, Option.bind_some, he2]
  exact (hall e' he1).1

/-! ### the cached configurations -/

theorem shareBack_file (dd : List PD) (D : PD) (cache : List (String × PD)) (j : String) : shareBack dd D cache (some (.file j)) =
    (lookupK j cache).elim cache (fun d => setK j (shareSection dd D "coords" (shareSection dd D "data_vars" d)) cache) := rfl

/-- the category has no item in this configuration -/
def NoItem (cat : String) (d : PD) : Prop := lookupK cat d = Option.none ∨ lookupK cat d = some (.dict [])

theorem sharesSection_iff (cat : String) (dd : List PD) : sharesSection cat dd = true ↔ ∀ x ∈ dd.dropLast, NoItem cat x := by
  unfold sharesSection
  rw [List.all_eq_true]
  refine forall₂_congr fun x _ => ?_
  unfold NoItem
  cases h : lookupK cat x with
  | none => simp
  | some v =>
    cases v with
    | dict s => cases s <;> simp
    | _ => simp

theorem shareSection_lookup (dd : List PD) (D : PD) (cat : String) (d : PD) (hD : (lookupK cat D).isSome = true) (k : String) :
    (k ≠ cat → lookupK k (shareSection dd D cat d) = lookupK k d) ∧
    ((∀ x ∈ dd.dropLast, NoItem cat x) → lookupK cat (shareSection dd D cat d) = lookupK cat D) ∧
    (¬ (∀ x ∈ dd.dropLast, NoItem cat x) → lookupK cat (shareSection dd D cat d) = lookupK cat d) := by
  obtain ⟨s, hs⟩ := Option.isSome_iff_exists.mp hD
  unfold shareSection
  rw [hs]
  show _ ∧ (_ → _ = some s) ∧ _
  by_cases h : sharesSection cat dd = true
  · rw [if_pos h]
    refine ⟨fun hk => ?_, fun _ => ?_, fun hn => absurd ((sharesSection_iff cat dd).1 h) hn⟩
    · show lookupK k (setK cat s d) = _
      rw [lookupK_setK, if_neg hk]
    · show lookupK cat (setK cat s d) = _
      rw [lookupK_setK, if_pos rfl]
  · rw [if_neg h]
    exact ⟨fun _ => rfl, fun hn => absurd ((sharesSection_iff cat dd).2 hn) h, fun _ => rfl⟩

theorem postH_sections (n : Nat) (h : Heap) (D : PD) (out : Heap × PD) (hp : postH n h D = .ok out) (cat : String) (hc : cat ∈ cfCats) :
    (lookupK cat out.2).isSome = true := by
  obtain ⟨r1, r2, dims, h1, h2, -, h3, h4⟩ := postH_inv n h D out hp
  simp only [cfCats, List.mem_cons, List.not_mem_nil, or_false] at hc
  rw [h4]
  rcases hc with rfl | rfl
  · rw [lookupK_setK, if_neg (by decide), lookupK_setK, if_pos rfl]; rfl
  · rw [lookupK_setK, if_pos rfl]; rfl

/-- **C128** (memory cache). A load changes no cached configuration but that of the last file, and in this one, no other section than the two
categories; a category of this one becomes that of the loaded specifications, with its inheritances done, when it is the only
configuration to have items in this category, and is not changed otherwise (its lists may be extended, see `C128_lists_grow_partial`). -/
theorem C128_cache (n : Nat) (st : CfSess) (srcs : List CfSrc) (dd : List PD) (hs : srcDicts st srcs = .ok dd)
    (out : CfSess × PD) (hp : loadSpecs n st srcs = .ok out) (k : String) :
    (srcs.getLast? ≠ some (.file k) → lookupK k out.1.cache = lookupK k st.cache) ∧
    (∀ d, srcs.getLast? = some (.file k) → lookupK k st.cache = some d → ∃ d', lookupK k out.1.cache = some d' ∧
      (∀ sec, sec ∉ cfCats → lookupK sec d' = lookupK sec d) ∧
      ∀ cat ∈ cfCats, ((∀ x ∈ dd.dropLast, NoItem cat x) → lookupK cat d' = lookupK cat out.2) ∧
        (¬ (∀ x ∈ dd.dropLast, NoItem cat x) → lookupK cat d' = lookupK cat d)) := by
  unfold loadSpecs at hp
  rw [hs] at hp
  obtain ⟨r, h2, h3⟩ := exceptBind_inv (show (postH n (dictMerge cfMergeOpts st.heap dd).1 (dictMerge cfMergeOpts st.heap dd).2).bind
    (fun r => .ok (⟨r.1, shareBack dd r.2 st.cache srcs.getLast?⟩, r.2)) = .ok out from hp)
  have h3 := Except.ok.inj h3
  rw [← h3]
  have hsec := postH_sections n _ _ r h2
  constructor
  · intro hk
    show lookupK k (shareBack dd r.2 st.cache srcs.getLast?) = _
    cases hl : srcs.getLast? with
    | none => rfl
    | some s =>
      cases s with
      | dict d => rfl
      | file j =>
        have hkj : k ≠ j := by rintro rfl; exact hk hl
        rw [shareBack_file]
        cases lookupK j st.cache with
        | none => rfl
        | some d =>
          show lookupK k (setK j _ st.cache) = _
          rw [lookupK_setK, if_neg hkj]
  · intro d hk hd
    refine ⟨shareSection dd r.2 "coords" (shareSection dd r.2 "data_vars" d), ?_, ?_, ?_⟩
    · show lookupK k (shareBack dd r.2 st.cache srcs.getLast?) = _
      rw [hk]
      rw [shareBack_file, hd]
      show lookupK k (setK k _ st.cache) = _
      rw [lookupK_setK, if_pos rfl]
    · intro sec hsec'
      simp only [cfCats, List.mem_cons, List.not_mem_nil, or_false, not_or] at hsec'
      rw [(shareSection_lookup dd r.2 "coords" _ (hsec _ (by simp [cfCats])) sec).1 hsec'.2,
        (shareSection_lookup dd r.2 "data_vars" _ (hsec _ (by simp [cfCats])) sec).1 hsec'.1]
    · intro cat hc
      have hc' := hc
      simp only [cfCats, List.mem_cons, List.not_mem_nil, or_false] at hc'
      rcases hc' with rfl | rfl
      · rw [(shareSection_lookup dd r.2 "coords" _ (hsec _ (by simp [cfCats])) "data_vars").1 (by decide)]
        exact (shareSection_lookup dd r.2 "data_vars" d (hsec _ hc) "").2
      · have := (shareSection_lookup dd r.2 "coords" (shareSection dd r.2 "data_vars" d) (hsec _ hc) "").2
        refine ⟨this.1, fun hn => ?_⟩
        rw [this.2 hn, (shareSection_lookup dd r.2 "data_vars" _ (hsec _ (by simp [cfCats])) "coords").1 (by decide)]

/-! ### set_specs -/

/-- **C129**: after `set_specs`, the items of the object are exactly the one given and those of its files. -/
theorem C129_names_partial (n : Nat) (st : CfSess) (o : CfObj) (d : PD) (dd : List PD) (hs : srcDicts st (o.files.map CfSrc.file) = .ok dd)
    (hv : ∀ x ∈ d :: dd, ValidCfg x) (out : CfSess × CfObj) (hp : setSpecs n st o d = .ok out) (cat : String) (hc : cat ∈ cfCats) (name : String) :
    KnownIn cat name out.2.dict ↔ KnownIn cat name d ∨ ∃ x ∈ dd, KnownIn cat name x := by
  unfold setSpecs at hp
  obtain ⟨r, h1, h2⟩ := exceptMap_inv hp
  have hs' : srcDicts st (.dict d :: o.files.map CfSrc.file) = .ok (d :: dd) := by
    unfold srcDicts
    show (srcDicts st (o.files.map CfSrc.file)).bind _ = _
    rw [hs]; rfl
  rw [← h2]
  simpa using C128_names n st _ (d :: dd) hs' hv r h1 cat hc name

/-- **C129 is violated**: an item that comes from the configuration given at the creation of the object, or
from a previous call of `set_specs`, is lost. -/
theorem C129_forgotten_violated (n : Nat) (st : CfSess) (o : CfObj) (d : PD) (dd : List PD) (hs : srcDicts st (o.files.map CfSrc.file) = .ok dd)
    (hv : ∀ x ∈ d :: dd, ValidCfg x) (out : CfSess × CfObj) (hp : setSpecs n st o d = .ok out) (cat : String) (hc : cat ∈ cfCats) (name : String)
    (_before : KnownIn cat name o.dict) (h1 : ¬ KnownIn cat name d) (h2 : ∀ x ∈ dd, ¬ KnownIn cat name x) : ¬ KnownIn cat name out.2.dict := by
  rw [C129_names_partial n st o d dd hs hv out hp cat hc name]
  rintro (h | ⟨x, hx, h⟩)
  · exact h1 h
  · exact h2 x hx h

/-- **C129 is violated** (copies): on an object that loads no file, as those given by `copy()`, `set_specs` leaves
the given item only. -/
theorem C129_copy_forgets_violated (n : Nat) (st : CfSess) (o : CfObj) (hf : o.files = []) (d : PD) (hv : ValidCfg d) (out : CfSess × CfObj)
    (hp : setSpecs n st o d = .ok out) (cat : String) (hc : cat ∈ cfCats) (name : String) : KnownIn cat name out.2.dict ↔ KnownIn cat name d := by
  have := C129_names_partial n st o d [] (by rw [hf]; rfl) (by simpa using hv) out hp cat hc name
  simpa using this

/-- **C129** (the item given): the lists given to `set_specs` come first in the specifications of the item. -/
theorem C129_given_partial (n : Nat) (st : CfSess) (o : CfObj) (d : PD) (out : CfSess × CfObj) (hp : setSpecs n st o d = .ok out)
    (cat name f : String) (q : List String) (r : Nat) (hc : cat ∈ cfCats) (hf : keptField f)
    (hg : getPath (cat :: name :: f :: q) (.dict d) = some (.list r)) (hr : st.heap r ≠ []) :
    getPath (cat :: name :: f :: q) (.dict out.2.dict) = some (.list r) ∧ st.heap r <+: out.1.heap r := by
  unfold setSpecs at hp
  obtain ⟨x, h1, h2⟩ := exceptMap_inv hp
  rw [← h2]
  exact C128_own_first_partial n st (.dict d) _ d rfl x h1 cat name f q r hc hf hg hr

/-! ### loads are not independent -/

/-- an item without standard name, with its list of names and its long name -/
def exItem (names long std : Nat) (inherit : PV) : PV :=
  .dict [("name", .list names), ("attrs", .dict [("long_name", .list long), ("standard_name", .list std)]), ("inherit", inherit)]

/-- a default configuration with two variables, the second one inheriting from the first one -/
def exDefault : PD :=
  [("data_vars", .dict [("temp", exItem 0 1 2 .none), ("sst", exItem 3 4 5 (.atom (.str "temp")))]), ("coords", .dict []), ("dims", .dict [])]

/-- a user configuration of the first one -/
def exUser : PD := [("data_vars", .dict [("temp", exItem 10 11 12 .none)]), ("coords", .dict []), ("dims", .dict [])]

/-- a session with these two files; `temp`, `sst` and `mine` are the names in the default file and in the user file -/
def exSess (temp sst mine : List Atom) : CfSess :=
  ⟨fun r => if r = 0 then temp else if r = 3 then sst else if r = 10 then mine else if r % 3 = 2 ∨ r = 12 then [] else [.str "long"],
    [("cf.cfg", exDefault), ("user.cfg", exUser)]⟩

/-- the names of a variable after two creations of specifications in the same session -/
def namesAfter (st : CfSess) (first second : List CfSrc) (name : String) : Option (List Atom) :=
  (newSpecs 3 st first ["cf.cfg"]).toOption.bind fun r1 => (newSpecs 3 r1.1 second ["cf.cfg"]).toOption.bind fun r2 => r2.2.names r2.1 "data_vars" name

/-- the names of a variable after one creation of specifications -/
def namesOnce (st : CfSess) (first : List CfSrc) (name : String) : Option (List Atom) :=
  (newSpecs 3 st first ["cf.cfg"]).toOption.bind fun r1 => r1.2.names r1.1 "data_vars" name

/-- the session of the examples -/
def exS : CfSess := exSess [.str "temp", .str "TEMP"] [.str "sst"] [.str "mine"]

/-- **C128 is violated** (contamination): loading a user file changes the specifications that a later load of the default file alone gives: the
names of the user file appear in them. -/
theorem C128_contamination_violated :
    namesOnce exS [] "sst" = some [.str "sst", .str "temp", .str "TEMP"] ∧
    namesAfter exS [.file "user.cfg"] [] "sst" = some [.str "sst", .str "mine", .str "temp", .str "TEMP", .str "temp", .str "TEMP"] := by
  decide +kernel

/-- **C128 is violated** (growth): loading the same user file twice does not give the same specifications. -/
theorem C128_growth_violated :
    namesOnce exS [.file "user.cfg"] "temp" = some [.str "mine", .str "temp", .str "TEMP"] ∧
    namesAfter exS [.file "user.cfg"] [.file "user.cfg"] "temp" = some [.str "mine", .str "temp", .str "TEMP", .str "temp", .str "TEMP"] := by
  decide +kernel

theorem exDefault_valid : ValidCfg exDefault := by
  refine ⟨by decide, fun cat hc => ?_⟩
  simp only [cfCats, List.mem_cons, List.not_mem_nil, or_false] at hc
  rcases hc with rfl | rfl
  · refine ⟨_, rfl, by decide, fun n v h => ?_⟩
    have := lookupK_mem _ _ _ h
    simp only [List.mem_cons, List.not_mem_nil, or_false, Prod.mk.injEq] at this
    rcases this with ⟨-, rfl⟩ | ⟨-, rfl⟩ <;> exact ⟨_, rfl⟩
  · exact ⟨_, rfl, by decide, fun n v h => by cases h⟩

theorem exUser_valid : ValidCfg exUser := by
  refine ⟨by decide, fun cat hc => ?_⟩
  simp only [cfCats, List.mem_cons, List.not_mem_nil, or_false] at hc
  rcases hc with rfl | rfl
  · refine ⟨_, rfl, by decide, fun n v h => ?_⟩
    have := lookupK_mem _ _ _ h
    simp only [List.mem_cons, List.not_mem_nil, or_false, Prod.mk.injEq] at this
    rcases this with ⟨-, rfl⟩; exact ⟨_, rfl⟩
  · exact ⟨_, rfl, by decide, fun n v h => by cases h⟩

/-- the hypotheses of the general theorems are met by the example: the load of the user and default files succeeds, both are valid
and the lists of names of the user file are not empty -/
example : srcDicts exS [.file "user.cfg", .file "cf.cfg"] = .ok [exUser, exDefault] ∧ (∀ d ∈ [exUser, exDefault], ValidCfg d) ∧
    (loadSpecs 3 exS [.file "user.cfg", .file "cf.cfg"]).toOption.isSome = true ∧
    getPath ["data_vars", "temp", "name"] (.dict exUser) = some (.list 10) ∧ exS.heap 10 ≠ [] := by
  refine ⟨rfl, ?_, by decide +kernel, by rfl, by decide +kernel⟩
  intro d hd
  simp only [List.mem_cons, List.not_mem_nil, or_false] at hd
  rcases hd with rfl | rfl
  · exact exUser_valid
  · exact exDefault_valid

/-- a configuration with a new variable, given as a dictionary -/
def exNew : PD := [("data_vars", .dict [("chl", exItem 20 21 23 .none)]), ("coords", .dict []), ("dims", .dict [])]

theorem exNew_valid : ValidCfg exNew := by
  refine ⟨by decide, fun cat hc => ?_⟩
  simp only [cfCats, List.mem_cons, List.not_mem_nil, or_false] at hc
  rcases hc with rfl | rfl
  · refine ⟨_, rfl, by decide, fun n v h => ?_⟩
    have := lookupK_mem _ _ _ h
    simp only [List.mem_cons, List.not_mem_nil, or_false, Prod.mk.injEq] at this
    rcases this with ⟨-, rfl⟩; exact ⟨_, rfl⟩
  · exact ⟨_, rfl, by decide, fun n v h => by cases h⟩

/-- the names of the data variables of an object -/
def CfObj.varNames (o : CfObj) : List String := (entsOf "data_vars" o.dict).map (·.1.2)

/-- **C129 is violated** (example): specifications made from a configuration with the variable `chl`; after `set_specs` of another
variable, `chl` is not there any more. -/
theorem C129_example_violated :
    ((newSpecs 3 exS [.dict exNew] ["cf.cfg"]).toOption.map fun r => r.2.varNames) = some ["chl", "temp", "sst"] ∧
    ((newSpecs 3 exS [.dict exNew] ["cf.cfg"]).toOption.bind fun r => (setSpecs 3 r.1 r.2 exUser).toOption.map fun s => s.2.varNames) =
      some ["temp", "sst"] := by
  decide +kernel

/-- the hypotheses of `C129_forgotten_violated` are met by this example -/
example : ∃ (st : CfSess) (o : CfObj) (out : CfSess × CfObj), setSpecs 3 st o exUser = .ok out ∧
    srcDicts st (o.files.map CfSrc.file) = .ok [exDefault] ∧ (∀ x ∈ [exUser, exDefault], ValidCfg x) ∧ KnownIn "data_vars" "chl" o.dict ∧
    ¬ KnownIn "data_vars" "chl" exUser ∧ ∀ x ∈ [exDefault], ¬ KnownIn "data_vars" "chl" x := by
  have hs : (setSpecs 3 exS ⟨["cf.cfg"], exNew⟩ exUser).toOption.isSome = true := by decide +kernel
  cases h : setSpecs 3 exS ⟨["cf.cfg"], exNew⟩ exUser with
  | error e => rw [h] at hs; cases hs
  | ok out =>
    refine ⟨exS, ⟨["cf.cfg"], exNew⟩, out, h, rfl, ?_, ⟨_, _, rfl, rfl⟩, ?_, ?_⟩
    · intro d hd
      simp only [List.mem_cons, List.not_mem_nil, or_false] at hd
      rcases hd with rfl | rfl
      · exact exUser_valid
      · exact exDefault_valid
    · rintro ⟨s, e, h1, h2⟩
      cases h1
      cases h2
    · intro x hx
      simp only [List.mem_cons, List.not_mem_nil, or_false] at hx
      subst hx
      rintro ⟨s, e, h1, h2⟩
      cases h1
      cases h2

/-- a configuration with a coordinate that inherits from a variable of the other category and has a standard name but no long name, an axis, and known dimensions -/
def exAxis : PD :=
  [("data_vars", .dict [("temp", exItem 0 1 2 .none)]),
   ("coords", .dict [("depth", .dict [("name", .list 3),
      ("attrs", .dict [("long_name", .list 5), ("standard_name", .list 4), ("axis", .atom (.str "Z"))]), ("inherit", .atom (.str "data_vars:temp"))])]),
   ("dims", .dict [("z", .list 6)])]

def exAxisSess : CfSess :=
  ⟨fun r => if r = 0 then [.str "temp"] else if r = 3 then [.str "dep"] else if r = 4 then [.str "ocean_depth"] else if r = 6 then [.str "lev"] else [], [("cf.cfg", exAxis)]⟩

/-- the hypotheses of `C128_dims` and `C128_long_name` are met: the texts of the long names, the inherited names and the known dimensions after the load -/
example : ((loadSpecs 3 exAxisSess [.file "cf.cfg"]).toOption.map fun o => [o.1.heap 1, o.1.heap 3, o.1.heap 5, o.1.heap 6]) =
      some [[.str "Temp"], [.str "dep", .str "temp"], [.str "Ocean depth", .str "Temp"], [.str "lev", .str "depth", .str "dep", .str "temp"]] ∧
    ((loadSpecs 3 exAxisSess [.file "cf.cfg"]).toOption.bind fun o => (getPath ["coords", "depth", "attrs", "axis"] (.dict o.2)).map (fun _ => true)) = some true ∧
    ((loadSpecs 3 exAxisSess [.file "cf.cfg"]).toOption.bind fun o => (getPath ["dims", "z"] (.dict o.2)).map (fun _ => true)) = some true := by
  decide +kernel

end Xoa
