import Verif.CfLoadProps

/-! # Inheritance when several configurations are loaded (C128) -/

namespace Xoa

/-- the item that the text of `inherit` designates, for an item of the category `cat`: `name` alone is an item of the same
category, `category:name` is an item of the category that is given -/
def Designates (cat txt : String) (p : String × String) : Prop :=
  (':' ∉ txt.toList ∧ p = (cat, txt)) ∨ (':' ∉ p.1.toList ∧ ':' ∉ p.2.toList ∧ txt.toList = p.1.toList ++ ':' :: p.2.toList)

theorem takeWhile_colon (a b : List Char) (ha : ':' ∉ a) : (a ++ ':' :: b).takeWhile (· ≠ ':') = a := by
  induction a with
  | nil => simp
  | cons c a ih =>
    simp only [List.mem_cons, not_or] at ha
    have : c ≠ ':' := fun h => ha.1 h.symm
    rw [List.cons_append, List.takeWhile_cons, if_pos (by simpa using this), ih ha.2]

theorem dropWhile_colon (a b : List Char) (ha : ':' ∉ a) : (a ++ ':' :: b).dropWhile (· ≠ ':') = ':' :: b := by
  induction a with
  | nil => simp
  | cons c a ih =>
    simp only [List.mem_cons, not_or] at ha
    have : c ≠ ':' := fun h => ha.1 h.symm
    rw [List.cons_append, List.dropWhile_cons, if_pos (by simpa using this), ih ha.2]

theorem takeWhile_nocolon (a : List Char) (ha : ':' ∉ a) : a.takeWhile (· ≠ ':') = a := by
  induction a with
  | nil => simp
  | cons c a ih =>
    simp only [List.mem_cons, not_or] at ha
    have : c ≠ ':' := fun h => ha.1 h.symm
    rw [List.takeWhile_cons, if_pos (by simpa using this), ih ha.2]

theorem parentOf_designates (cat txt : String) (p : String × String) (h : Designates cat txt p) : parentOf cat txt = p := by
  unfold parentOf parseInherit
  rcases h with ⟨h1, h2⟩ | ⟨h1, h2, h3⟩
  · rw [if_neg h1, h2]
    simp [String.ofList_toList]
  · rw [if_pos (by rw [h3]; simp), h3, takeWhile_colon _ _ h1, dropWhile_colon _ _ h1]
    simp only [List.drop_succ_cons, List.drop_zero]
    rw [takeWhile_nocolon _ h2, String.ofList_toList, String.ofList_toList]

/-- the elements of a list of a dictionary that is merged are added to the list at the same place -/
theorem mergeItems_contains (r rp : Nat) (x : Atom) : ∀ (q : List String), q ≠ [] → ∀ (items : List (String × PV)) (h : Heap) (out : PD), h r ≠ [] →
    getPath q (.dict out) = some (.list r) → getPath q (.dict items) = some (.list rp) → x ∈ h rp →
    x ∈ (mergeItems cfMergeOpts h out items).1 r := by
  intro q
  induction q with
  | nil => intro hq; exact absurd rfl hq
  | cons k q ihq =>
    intro _ items
    induction items with
    | nil => intro h out _ _ hi; cases hi
    | cons kv items ihi =>
      intro h out hr hg hi hx
      obtain ⟨k', v⟩ := kv
      have hr' := not_empty_of_prefix (mergeItem_prefix cfMergeOpts h out (k', v) r) hr
      unfold mergeItems
      by_cases hk : k = k'
      · subst hk
        refine (mergeItems_prefix cfMergeOpts _ _ items r).subset ?_
        rw [getPath_cons] at hg hi
        have hv : getPath q v = some (.list rp) := by simpa [lookupK] using hi
        cases hl : lookupK k out with
        | none => rw [hl] at hg; cases hg
        | some w =>
          rw [hl, Option.bind_some] at hg
          have hne : isEmptyPV h w = false := by
            cases q with
            | nil =>
              simp only [getPath, Option.some.injEq] at hg
              subst hg
              cases hh : h r with
              | nil => exact absurd hh hr
              | cons a l => simp [isEmptyPV, hh]
            | cons k2 q2 =>
              cases w with
              | dict a =>
                cases a with
                | nil => simp [getPath, lookupK] at hg
                | cons x a => rfl
              | _ => cases hg
          have hm : (mergeItem cfMergeOpts h out (k, v)).1 = (mergeVal cfMergeOpts h w v).1 := by
            unfold mergeItem
            simp [cfMergeOpts, hl, hne]
          rw [hm]
          cases q with
          | nil =>
            simp only [getPath, Option.some.injEq] at hg hv
            subst hg hv
            simp [mergeVal, cfMergeOpts, hx]
          | cons k2 q2 =>
            cases w with
            | dict a =>
              cases v with
              | dict b =>
                have : (mergeVal cfMergeOpts h (.dict a) (.dict b)).1 = (mergeItems cfMergeOpts h a b).1 := by
                  simp [mergeVal, cfMergeOpts, initFrom]
                rw [this]
                exact ihq (by simp) b h a hr hg hv hx
              | _ => cases hv
            | _ => cases hg
      · refine ihi _ _ hr' ?_ ?_ ((mergeItem_prefix cfMergeOpts h out (k', v) rp).subset hx)
        · rw [getPath_cons] at hg ⊢
          rw [mergeItem_lookup, if_neg hk]; exact hg
        · rw [getPath_cons] at hi ⊢
          simpa [lookupK, hk] using hi

theorem fromParent_contains (k p : HKey) (q : List String) (hq : q ≠ []) (h : Heap) (e pe : PD) (r rp : Nat) (x : Atom) (hr : h r ≠ [])
    (hg : getPath q (.dict e) = some (.list r)) (hp : getPath q (.dict pe) = some (.list rp)) (hx : x ∈ h rp) :
    x ∈ (fromParent k p h e pe).1 r := by
  cases q with
  | nil => exact absurd rfl hq
  | cons f q =>
    show x ∈ (mergeItems cfMergeOpts (mergeItems cfMergeOpts h [] e).1 (mergeItems cfMergeOpts h [] e).2 pe).1 r
    exact mergeItems_contains r rp x (f :: q) hq pe _ _ (not_empty_of_prefix (mergeItems_prefix cfMergeOpts h [] e r) hr)
      (mergeItems_first r f q e h [] hr rfl hg) hp ((mergeItems_prefix cfMergeOpts h [] e rp).subset hx)

/-- the cases of a successful `_process_entry_`, with the text of `inherit` -/
theorem processH_inv_text (n : Nat) (h : Heap) (D : HEnts) (k : HKey) (out : Heap × HEnts × HEnts) (hp : processH n h D k = .ok out) :
    ∃ m e h1 t, n = m + 1 ∧ lookupH k D = some e ∧ prepH h k.2 e = .ok h1 ∧ inheritH h1 e = .ok t ∧
      ((t = none ∧ out = (h1, D, [(k, e)])) ∨
        ∃ txt r pe, t = some txt ∧ processH m h1 D (parentOf k.1 txt) = .ok r ∧ lookupH (parentOf k.1 txt) r.2.1 = some pe ∧
          out = ((fromParent k (parentOf k.1 txt) r.1 e pe).1, setH k (fromParent k (parentOf k.1 txt) r.1 e pe).2 r.2.1,
            r.2.2 ++ [(k, (fromParent k (parentOf k.1 txt) r.1 e pe).2)])) := by
  cases n with
  | zero => cases hp
  | succ m =>
    unfold processH at hp
    cases hl : lookupH k D with
    | none => rw [hl] at hp; cases hp
    | some e =>
      rw [hl] at hp
      simp only at hp
      obtain ⟨h1, hh, hp⟩ := exceptBind_inv hp
      obtain ⟨t, ht, hp⟩ := exceptBind_inv hp
      refine ⟨m, e, h1, t, rfl, rfl, hh, ht, ?_⟩
      cases t with
      | none => injection hp with hp; exact Or.inl ⟨rfl, hp.symm⟩
      | some txt =>
        simp only at hp
        right
        by_cases hk : parentOf k.1 txt = k
        · rw [if_pos hk] at hp; cases hp
        · rw [if_neg hk] at hp
          obtain ⟨r, hr, hp⟩ := exceptBind_inv hp
          cases hq : lookupH (parentOf k.1 txt) r.2.1 with
          | none => rw [hq] at hp; cases hp
          | some pe =>
            rw [hq] at hp
            injection hp with hp
            exact ⟨txt, r, pe, rfl, hr, hq, hp.symm⟩

/-- the entry `k` still has to inherit from `p`; both have a list at the path `q` -/
structure ToInherit (k p : HKey) (txt : String) (q : List String) (r rp : Nat) (x : Atom) (h : Heap) (D : HEnts) : Prop where
  child : ∃ e, lookupH k D = some e ∧ getPath q (.dict e) = some (.list r) ∧ lookupK "inherit" e = some (.atom (.str txt))
  parent : ∃ e, lookupH p D = some e ∧ getPath q (.dict e) = some (.list rp)
  own : h r ≠ []
  elem : x ∈ h rp

theorem ToInherit.grow {k p : HKey} {txt : String} {q : List String} {r rp : Nat} {x : Atom} {h h' : Heap} {D : HEnts}
    (hP : ToInherit k p txt q r rp x h D) (hp : ∀ i, h i <+: h' i) : ToInherit k p txt q r rp x h' D :=
  ⟨hP.child, hP.parent, not_empty_of_prefix (hp r) hP.own, (hp rp).subset hP.elem⟩

theorem processH_inherits (k p : HKey) (txt : String) (htxt : txt ≠ "") (hpar : parentOf k.1 txt = p) (hc : p.1 ∈ cfCats)
    (f : String) (hf : keptField f) (q : List String) (r rp : Nat) (x : Atom) (n : Nat) :
    ∀ (h : Heap) (D : HEnts) (j : HKey) (out : Heap × HEnts × HEnts), processH n h D j = .ok out → ToInherit k p txt (f :: q) r rp x h D →
      (x ∈ out.1 r ∨ (j ≠ k ∧ ToInherit k p txt (f :: q) r rp x out.1 out.2.1)) := by
  induction n with
  | zero => intro h D j out hp; cases hp
  | succ m ih =>
    intro h D j out hp hP
    obtain ⟨m', e, h1, t, hm, hl, hh, ht, ho⟩ := processH_inv_text _ h D j out hp
    cases hm
    have hP1 := hP.grow (prepH_prefix h h1 j.2 e hh)
    rcases ho with ⟨h0, ho⟩ | ⟨tx, o, pe, h0, hq, hpe, ho⟩
    · by_cases hjk : j = k
      · exfalso
        subst hjk
        obtain ⟨e', a1, -, a3⟩ := hP.child
        rw [hl] at a1
        cases a1
        unfold inheritH at ht
        rw [a3] at ht
        have : isEmptyPV h1 (.atom (.str txt)) = false := by
          simp only [isEmptyPV, String.isEmpty_eq_false_iff]; exact htxt
        simp only [this, Bool.false_eq_true, if_false] at ht
        rw [h0] at ht
        cases ht
      · rw [ho]; exact Or.inr ⟨hjk, hP1⟩
    · by_cases hjk : j = k
      · left
        subst hjk
        obtain ⟨e', a1, a2, a3⟩ := hP.child
        rw [hl] at a1
        cases a1
        have htx : tx = txt := by
          unfold inheritH at ht
          rw [a3] at ht
          have : isEmptyPV h1 (.atom (.str txt)) = false := by
            simp only [isEmptyPV, String.isEmpty_eq_false_iff]; exact htxt
          simp only [this, Bool.false_eq_true, if_false] at ht
          rw [h0] at ht
          injection ht with ht
          injection ht with ht
          exact ht.symm
        rw [htx] at hq hpe ho
        rw [hpar] at hq hpe ho
        have hne : h1 rp ≠ [] := List.ne_nil_of_mem hP1.elem
        obtain ⟨⟨pe', b1, b2⟩, -⟩ := processH_path p hc f hf q rp m h1 D p o hq hne hP1.parent
        rw [hpe] at b1
        cases b1
        rw [ho]
        have hpre := processH_prefix m h1 D p o hq
        exact fromParent_contains j p (f :: q) (by simp) o.1 e pe r rp x (not_empty_of_prefix (hpre r) hP1.own) a2 b2 ((hpre rp).subset hP1.elem)
      · have hpre := fromParent_prefix j (parentOf j.1 tx) o.1 e pe
        rw [ho]
        rcases ih _ _ _ _ hq hP1 with hd | ⟨-, hd⟩
        · exact Or.inl ((hpre r).subset hd)
        · right
          refine ⟨hjk, ?_⟩
          have hd' := hd.grow hpre
          refine ⟨?_, ?_, hd'.own, hd'.elem⟩
          · simp only [lookupH_setH]
            rw [if_neg (fun h => hjk h.symm)]
            exact hd.child
          · simp only [lookupH_setH]
            by_cases hpj : p = j
            · rw [if_pos hpj]
              have hne : h1 rp ≠ [] := List.ne_nil_of_mem hP1.elem
              have hpath : getPath (f :: q) (.dict e) = some (.list rp) := by
                obtain ⟨e', b1, b2⟩ := hP.parent
                rw [hpj, hl] at b1
                cases b1
                exact b2
              exact ⟨_, rfl, fromParent_path j _ (by rw [← hpj]; exact hc) f hf q o.1 e pe rp (List.ne_nil_of_mem hd.elem) hpath⟩
            · rw [if_neg hpj]; exact hd.parent

theorem processAllH_inherits (k p : HKey) (txt : String) (htxt : txt ≠ "") (hpar : parentOf k.1 txt = p) (hc : p.1 ∈ cfCats)
    (f : String) (hf : keptField f) (q : List String) (r rp : Nat) (x : Atom) (n : Nat) :
    ∀ (ks : List HKey) (h : Heap) (D : HEnts) (out : Heap × HEnts × HEnts), processAllH n h D ks = .ok out → ToInherit k p txt (f :: q) r rp x h D →
      (x ∈ out.1 r ∨ (k ∉ ks ∧ ToInherit k p txt (f :: q) r rp x out.1 out.2.1)) := by
  intro ks
  induction ks with
  | nil =>
    intro h D out hp hP
    injection hp with hp
    subst hp
    exact Or.inr ⟨by simp, hP⟩
  | cons j ks ih =>
    intro h D out hp hP
    unfold processAllH at hp
    obtain ⟨a, ha, hp⟩ := exceptBind_inv hp
    obtain ⟨b, hb, hp⟩ := exceptBind_inv hp
    injection hp with hp
    subst hp
    rcases processH_inherits k p txt htxt hpar hc f hf q r rp x n h D j a ha hP with h1 | ⟨h1, h2⟩
    · exact Or.inl ((processAllH_prefix n _ _ _ _ hb r).subset h1)
    · rcases ih _ _ _ hb h2 with h3 | ⟨h3, h4⟩
      · exact Or.inl h3
      · exact Or.inr ⟨by simp only [List.mem_cons, not_or]; exact ⟨fun h => h1 h.symm, h3⟩, h4⟩

/-- **C128** (inheritance): in the specifications that a load gives, a list (names or attribute) of an item that inherits from another
one, of the same category or not, has all the elements of the same list of the other one. Here `D` is the merge of the configurations. -/
theorem C128_inherits (n : Nat) (st : CfSess) (srcs : List CfSrc) (dd : List PD) (hs : srcDicts st srcs = .ok dd) (out : CfSess × PD)
    (hp : loadSpecs n st srcs = .ok out) (D : PD) (hD : D = (dictMerge cfMergeOpts st.heap dd).2) (cat name pcat pname txt f : String) (q : List String)
    (hc : cat ∈ cfCats) (hpc : pcat ∈ cfCats) (hf : f = "name" ∨ f = "attrs")
    (hi : getPath [cat, name, "inherit"] (.dict D) = some (.atom (.str txt))) (htxt : txt ≠ "") (hd : Designates cat txt (pcat, pname))
    (r rp : Nat) (hr : getPath (cat :: name :: f :: q) (.dict D) = some (.list r)) (hr0 : st.heap r ≠ [])
    (hrp : getPath (pcat :: pname :: f :: q) (.dict D) = some (.list rp)) :
    getPath (cat :: name :: f :: q) (.dict out.2) = some (.list r) ∧ ∀ x ∈ st.heap rp, x ∈ out.1.heap r := by
  obtain ⟨dd', o, g0, h2, h3, h4⟩ := loadSpecs_inv n st srcs out hp
  rw [hs] at g0
  cases g0
  subst hD
  have hgrow := C95_inputs_extended_partial cfMergeOpts st.heap dd
  have hr1 := not_empty_of_prefix (hgrow r) hr0
  rw [h3, h4]
  refine ⟨postH_path n _ _ o h2 cat name f q r hc hf hr1 hr, ?_⟩
  intro x hx
  obtain ⟨r1, r2, dims, k1, k2, -, k3, k4⟩ := postH_inv n _ _ o h2
  obtain ⟨e, he1, he2⟩ := entry_of_path cat name (f :: q) r _ hc hr (by simp)
  obtain ⟨pe, hpe1, hpe2⟩ := entry_of_path pcat pname (f :: q) rp _ hpc hrp (by simp)
  have hinh : lookupK "inherit" e = some (.atom (.str txt)) := by
    rw [getPath_cons] at hi hr
    cases hx1 : lookupK cat (dictMerge cfMergeOpts st.heap dd).2 with
    | none => rw [hx1] at hi; cases hi
    | some v =>
      rw [hx1, Option.bind_some] at hi hr
      cases v with
      | dict s =>
        rw [getPath_cons] at hi hr
        cases hx2 : lookupK name s with
        | none => rw [hx2] at hi; cases hi
        | some w =>
          rw [hx2, Option.bind_some] at hi hr
          cases w with
          | dict e' =>
            have hle := lookupH_entsOf cat name _ s e' hx1 hx2
            have hee : e' = e := by
              rw [lookupH_append] at he1
              simp only [cfCats, List.mem_cons, List.not_mem_nil, or_false] at hc
              rcases hc with rfl | rfl
              · rw [hle] at he1; simpa using he1
              · have : lookupH ("coords", name) (entsOf "data_vars" (dictMerge cfMergeOpts st.heap dd).2) = none := by
                  cases hx : lookupH ("coords", name) (entsOf "data_vars" (dictMerge cfMergeOpts st.heap dd).2) with
                  | none => rfl
                  | some y =>
                    obtain ⟨p, hp1, hp2⟩ := List.mem_map.mp ((lookupH_isSome _ _).1 ⟨y, hx⟩)
                    have := entsOf_cat "data_vars" _ p hp1
                    rw [hp2] at this
                    exact absurd (show "coords" = "data_vars" from this) (by decide)
                rw [this, hle] at he1
                simpa using he1
            subst hee
            rw [getPath_cons] at hi
            cases hy : lookupK "inherit" e' with
            | none => rw [hy] at hi; cases hi
            | some z =>
              rw [hy, Option.bind_some] at hi
              simpa [getPath] using hi
          | _ => cases hi
      | _ => cases hi
  have hP : ToInherit (cat, name) (pcat, pname) txt (f :: q) r rp x (dictMerge cfMergeOpts st.heap dd).1
      (entsOf "data_vars" (dictMerge cfMergeOpts st.heap dd).2 ++ entsOf "coords" (dictMerge cfMergeOpts st.heap dd).2) :=
    ⟨⟨e, he1, he2, hinh⟩, ⟨pe, hpe1, hpe2⟩, hr1, (hgrow rp).subset hx⟩
  have hpar := parentOf_designates cat txt (pcat, pname) hd
  have p2 := processAllH_prefix n _ _ _ _ k2 r
  have p3 := allDimsH_prefix dims _ _ _ k3 r
  rcases processAllH_inherits (cat, name) (pcat, pname) txt htxt hpar hpc f hf q r rp x n _ _ _ _ k1 hP with h5 | ⟨h5, h6⟩
  · exact p3.subset (p2.subset h5)
  · rcases processAllH_inherits (cat, name) (pcat, pname) txt htxt hpar hpc f hf q r rp x n _ _ _ _ k2 h6 with h7 | ⟨h7, -⟩
    · exact p3.subset h7
    · exfalso
      have hm := (lookupH_isSome _ _).1 ⟨e, he1⟩
      obtain ⟨-, -, c3⟩ := processAllH_items n _ _ _ _ k1
      simp only [cfCats, List.mem_cons, List.not_mem_nil, or_false] at hc
      rcases hc with rfl | rfl
      · apply h5
        refine List.mem_filter.mpr ⟨?_, by simp⟩
        rw [List.map_append, List.mem_append] at hm
        rcases hm with hm | hm
        · exact hm
        · obtain ⟨p, hp1, hp2⟩ := List.mem_map.mp hm
          have := entsOf_cat "coords" _ p hp1
          rw [hp2] at this
          exact absurd (show "data_vars" = "coords" from this) (by decide)
      · exact h7 (List.mem_filter.mpr ⟨(c3 _).2 hm, by simp⟩)

/-! ### the text of the long names -/

/-- the list of address `r` is somewhere in a value -/
inductive Occ (r : Nat) : PV → Prop
  | here : Occ r (.list r)
  | sub (k : String) (v : PV) (d : PD) : (k, v) ∈ d → Occ r v → Occ r (.dict d)

theorem Occ.dict_iff (r : Nat) (d : PD) : Occ r (.dict d) ↔ ∃ k v, (k, v) ∈ d ∧ Occ r v := by
  constructor
  · intro h
    cases h with
    | sub k v d hm ho => exact ⟨k, v, hm, ho⟩
  · rintro ⟨k, v, hm, ho⟩
    exact .sub k v d hm ho

theorem Occ.setK {r : Nat} {k : String} {v : PV} {d : PD} (h : Occ r (.dict (setK k v d))) : Occ r v ∨ Occ r (.dict d) := by
  induction d with
  | nil =>
    simp only [Xoa.setK] at h
    obtain ⟨k', v', hm, ho⟩ := (Occ.dict_iff r _).1 h
    simp only [List.mem_singleton, Prod.mk.injEq] at hm
    rw [hm.2] at ho
    exact Or.inl ho
  | cons kv d ih =>
    obtain ⟨a, b⟩ := kv
    simp only [Xoa.setK] at h
    split at h
    · obtain ⟨k', v', hm, ho⟩ := (Occ.dict_iff r _).1 h
      rcases List.mem_cons.1 hm with hm | hm
      · cases hm; exact Or.inl ho
      · exact Or.inr (.sub k' v' _ (List.mem_cons_of_mem _ hm) ho)
    · obtain ⟨k', v', hm, ho⟩ := (Occ.dict_iff r _).1 h
      rcases List.mem_cons.1 hm with hm | hm
      · cases hm; exact Or.inr (.sub _ _ _ List.mem_cons_self ho)
      · rcases ih (.sub k' v' _ hm ho) with h1 | h1
        · exact Or.inl h1
        · obtain ⟨k2, v2, hm2, ho2⟩ := (Occ.dict_iff r _).1 h1
          exact Or.inr (.sub k2 v2 _ (List.mem_cons_of_mem _ hm2) ho2)

mutual
theorem mergeVal_occ (r : Nat) (h : Heap) (w : PV) (hw : ¬ Occ r w) : ∀ v, ¬ Occ r v →
    ¬ Occ r (mergeVal cfMergeOpts h w v).2 ∧ (mergeVal cfMergeOpts h w v).1 r = h r
  | .dict b, hv => by
    unfold mergeVal
    cases w with
    | dict a =>
      simp only [cfMergeOpts, if_true]
      exact mergeItems_occ r h a hw b hv
    | _ => exact ⟨hw, rfl⟩
  | .list rb, hv => by
    unfold mergeVal
    cases w with
    | list ra =>
      have : r ≠ ra := by rintro rfl; exact hw .here
      simp only [cfMergeOpts, if_true, Bool.false_eq_true, if_false]
      exact ⟨hw, if_neg this⟩
    | _ => exact ⟨hw, rfl⟩
  | .tuple tb, hv => by
    unfold mergeVal
    cases w with
    | tuple ta =>
      simp only [cfMergeOpts, if_true, Bool.false_eq_true, if_false]
      exact ⟨nofun, trivial⟩
    | _ => exact ⟨hw, rfl⟩
  | .none, _ => by unfold mergeVal; exact ⟨hw, rfl⟩
  | .atom _, _ => by unfold mergeVal; exact ⟨hw, rfl⟩
  | .gen _, _ => by unfold mergeVal; exact ⟨hw, rfl⟩

theorem mergeItems_occ (r : Nat) (h : Heap) (out : PD) (ho : ¬ Occ r (.dict out)) : ∀ d : List (String × PV), ¬ Occ r (.dict d) →
    ¬ Occ r (.dict (mergeItems cfMergeOpts h out d).2) ∧ (mergeItems cfMergeOpts h out d).1 r = h r
  | [], _ => by unfold mergeItems; exact ⟨ho, rfl⟩
  | kv :: rest, hd => by
    unfold mergeItems
    have h1 := mergeItem_occ r h out ho kv (fun hk => hd (.sub kv.1 kv.2 _ List.mem_cons_self hk))
    have h2 := mergeItems_occ r (mergeItem cfMergeOpts h out kv).1 (mergeItem cfMergeOpts h out kv).2 h1.1 rest (by
      intro hk
      obtain ⟨k', v', hm, hv⟩ := (Occ.dict_iff r _).1 hk
      exact hd (.sub k' v' _ (List.mem_cons_of_mem _ hm) hv))
    exact ⟨h2.1, h2.2.trans h1.2⟩

theorem mergeItem_occ (r : Nat) (h : Heap) (out : PD) (ho : ¬ Occ r (.dict out)) : ∀ kv : String × PV, ¬ Occ r kv.2 →
    ¬ Occ r (.dict (mergeItem cfMergeOpts h out kv).2) ∧ (mergeItem cfMergeOpts h out kv).1 r = h r
  | (k, v), hv => by
    unfold mergeItem
    have hset : ∀ x : PV, ¬ Occ r x → ¬ Occ r (.dict (setK k x out)) := fun x hx hk => (Occ.setK hk).elim hx ho
    split
    · exact ⟨ho, rfl⟩
    · split
      · exact ⟨hset v hv, rfl⟩
      · next w hl =>
        split
        · exact ⟨hset v hv, rfl⟩
        · have hw : ¬ Occ r w := fun hk => ho (.sub k w _ (lookupK_mem k w out hl) hk)
          have := mergeVal_occ r h w hw v hv
          exact ⟨hset _ this.1, this.2⟩
end

theorem fromParent_occ (r : Nat) (k p : HKey) (h : Heap) (e pe : PD) (he : ¬ Occ r (.dict e)) (hpe : ¬ Occ r (.dict pe)) :
    ¬ Occ r (.dict (fromParent k p h e pe).2) ∧ (fromParent k p h e pe).1 r = h r := by
  have hnil : ¬ Occ r (.dict []) := by
    intro h
    obtain ⟨_, _, hm, _⟩ := (Occ.dict_iff r _).1 h
    simp at hm
  have h1 := mergeItems_occ r h [] hnil e he
  have h2 := mergeItems_occ r (mergeItems cfMergeOpts h [] e).1 (mergeItems cfMergeOpts h [] e).2 h1.1 pe hpe
  refine ⟨?_, h2.2.trans h1.2⟩
  intro hk
  unfold fromParent at hk
  rcases Occ.setK hk with hk | hk
  · cases hk
  · have : ∀ d : PD, Occ r (.dict (dropH k.1 p.1 d)) → Occ r (.dict d) := by
      intro d hd
      unfold dropH at hd
      split at hd
      · exact hd
      · obtain ⟨k', v', hm, hv⟩ := (Occ.dict_iff r _).1 hd
        exact .sub k' v' _ (List.mem_filter.1 hm).1 hv
    exact h2.1 (this _ hk)

theorem itemK_occ (r : Nat) (k : String) (d : PD) (v : PV) (hi : itemK k d = .ok v) (ho : Occ r v) : Occ r (.dict d) := by
  unfold itemK at hi
  cases hl : lookupK k d with
  | none => rw [hl] at hi; cases hi
  | some w =>
    rw [hl] at hi
    cases hi
    exact .sub k v _ (lookupK_mem k v d hl) ho

theorem subK_occ (r : Nat) (k : String) (d v : PD) (hi : subK k d = .ok v) (ho : Occ r (.dict v)) : Occ r (.dict d) := by
  unfold subK at hi
  cases hl : lookupK k d with
  | none => rw [hl] at hi; cases hi
  | some w =>
    rw [hl] at hi
    cases w with
    | dict e => cases hi; exact .sub k _ _ (lookupK_mem k _ d hl) ho
    | _ => cases hi

theorem prepH_occ (r : Nat) (h h' : Heap) (name : String) (e : PD) (hp : prepH h name e = .ok h') (he : ¬ Occ r (.dict e)) : h' r = h r := by
  unfold prepH at hp
  obtain ⟨a, ha, hp⟩ := exceptBind_inv hp
  obtain ⟨ln, hln, hp⟩ := exceptBind_inv hp
  split at hp
  · obtain ⟨sn, -, hp⟩ := exceptBind_inv hp
    obtain ⟨txt, -, hp⟩ := exceptBind_inv hp
    cases ln with
    | list rl =>
      injection hp with hp
      subst hp
      unfold appendTo
      rw [if_neg]
      rintro rfl
      exact he (subK_occ _ _ _ _ ha (itemK_occ _ _ _ _ hln .here))
    | _ => cases hp
  · injection hp with hp; rw [hp]

/-- how a name reads: underscores are spaces, and only the first letter is a capital -/
def readable (s : String) : String := String.ofList (capitalize (replaceC '_' ' ' s.toList))

/-- the long name of an item without one: its first standard name or its name -/
def LongText (name : String) (std : List Atom) (txt : String) : Prop :=
  (std = [] ∧ txt = readable name) ∨ (∃ s l, std = .str s :: l ∧ txt = readable s)

theorem prepH_text (h h' : Heap) (name : String) (e : PD) (hp : prepH h name e = .ok h') (r rs : Nat) (hr : h r = [])
    (hg : getPath ["attrs", "long_name"] (.dict e) = some (.list r)) (hs : getPath ["attrs", "standard_name"] (.dict e) = some (.list rs)) :
    ∃ txt, LongText name (h rs) txt ∧ h' r = [.str txt] := by
  unfold prepH at hp
  obtain ⟨a, ha, hp⟩ := exceptBind_inv hp
  obtain ⟨ln, hln, hp⟩ := exceptBind_inv hp
  have hla : lookupK "attrs" e = some (.dict a) := by
    unfold subK at ha
    cases hl : lookupK "attrs" e with
    | none => rw [hl] at ha; cases ha
    | some v =>
      rw [hl] at ha
      cases v with
      | dict d => cases ha; rfl
      | _ => cases ha
  have hit : ∀ (k : String) (i : Nat) (v : PV), getPath ["attrs", k] (.dict e) = some (.list i) → itemK k a = .ok v → v = .list i := by
    intro k i v h1 h2
    rw [getPath_cons, hla, Option.bind_some, getPath_cons] at h1
    unfold itemK at h2
    cases hl2 : lookupK k a with
    | none => rw [hl2] at h2; cases h2
    | some w =>
      rw [hl2] at h2 h1
      cases h2
      exact Option.some.inj h1
  have := hit _ _ _ hg hln
  subst this
  rw [if_pos (by simp [isEmptyPV, hr])] at hp
  obtain ⟨sn, hsn, hp2⟩ := exceptBind_inv hp
  have := hit _ _ _ hs hsn
  subst this
  obtain ⟨txt, htxt, hp3⟩ := exceptBind_inv hp2
  have hp4 : Except.ok (appendTo h r [.str txt]) = Except.ok h' := hp3
  injection hp4 with hp4
  subst hp4
  refine ⟨txt, ?_, by simp [appendTo, hr]⟩
  unfold longText at htxt
  split at htxt
  · next he =>
    injection htxt with htxt
    left
    exact ⟨by simpa [isEmptyPV] using he, htxt.symm⟩
  · right
    simp only at htxt
    split at htxt
    · next s l hsl =>
      injection htxt with htxt
      exact ⟨s, l, hsl, htxt.symm⟩
    · cases htxt

/-- the entry `k` has not been processed yet: its empty list of long names and its standard names are not those of other entries -/
structure Untouched (k : HKey) (e : PD) (r rs : Nat) (std : List Atom) (h : Heap) (D : HEnts) : Prop where
  entry : lookupH k D = some e
  empty : h r = []
  stds : h rs = std
  alone : ∀ k' e', k' ≠ k → lookupH k' D = some e' → ¬ Occ r (.dict e') ∧ ¬ Occ rs (.dict e')

theorem processH_text (k : HKey) (e : PD) (r rs : Nat) (std : List Atom)
    (hg : getPath ["attrs", "long_name"] (.dict e) = some (.list r)) (hs : getPath ["attrs", "standard_name"] (.dict e) = some (.list rs)) (n : Nat) :
    ∀ (h : Heap) (D : HEnts) (j : HKey) (out : Heap × HEnts × HEnts), processH n h D j = .ok out → Untouched k e r rs std h D →
      ((∃ txt, LongText k.2 std txt ∧ [Atom.str txt] <+: out.1 r) ∨ (j ≠ k ∧ Untouched k e r rs std out.1 out.2.1)) := by
  induction n with
  | zero => intro h D j out hp; cases hp
  | succ m ih =>
    intro h D j out hp hU
    obtain ⟨m', ej, h1, t, hm, hl, hh, -, ho⟩ := processH_inv_text _ h D j out hp
    cases hm
    by_cases hjk : j = k
    · left
      subst hjk
      have := hU.entry
      rw [hl] at this
      injection this with this
      subst this
      obtain ⟨txt, ht1, ht2⟩ := prepH_text h h1 j.2 ej hh r rs hU.empty hg hs
      rw [hU.stds] at ht1
      refine ⟨txt, ht1, ?_⟩
      rcases ho with ⟨-, ho⟩ | ⟨tx, o, pe, -, hq, -, ho⟩
      · rw [ho]
        simp only [ht2, List.prefix_refl]
      · rw [ho, ← ht2]
        exact (processH_prefix m h1 D _ o hq r).trans (fromParent_prefix j (parentOf j.1 tx) o.1 ej pe r)
    · obtain ⟨n1, n2⟩ := hU.alone j ej hjk hl
      have hU1 : Untouched k e r rs std h1 D :=
        ⟨hU.entry, (prepH_occ r h h1 j.2 ej hh n1).trans hU.empty, (prepH_occ rs h h1 j.2 ej hh n2).trans hU.stds, hU.alone⟩
      rcases ho with ⟨-, ho⟩ | ⟨tx, o, pe, -, hq, hpe, ho⟩
      · rw [ho]; exact Or.inr ⟨hjk, hU1⟩
      · rw [ho]
        rcases ih _ _ _ _ hq hU1 with ⟨txt, t1, t2⟩ | ⟨hpk, hU2⟩
        · exact Or.inl ⟨txt, t1, t2.trans (fromParent_prefix j (parentOf j.1 tx) o.1 ej pe r)⟩
        · right
          refine ⟨hjk, ?_⟩
          obtain ⟨q1, q2⟩ := hU2.alone _ pe hpk hpe
          have f1 := fromParent_occ r j (parentOf j.1 tx) o.1 ej pe n1 q1
          have f2 := fromParent_occ rs j (parentOf j.1 tx) o.1 ej pe n2 q2
          refine ⟨?_, f1.2.trans hU2.empty, f2.2.trans hU2.stds, ?_⟩
          · simp only [lookupH_setH]
            rw [if_neg (fun h => hjk h.symm)]
            exact hU2.entry
          · intro k' e' hk' hl'
            simp only [lookupH_setH] at hl'
            split at hl'
            · cases hl'; exact ⟨f1.1, f2.1⟩
            · exact hU2.alone k' e' hk' hl'

theorem processAllH_text (k : HKey) (e : PD) (r rs : Nat) (std : List Atom)
    (hg : getPath ["attrs", "long_name"] (.dict e) = some (.list r)) (hs : getPath ["attrs", "standard_name"] (.dict e) = some (.list rs)) (n : Nat) :
    ∀ (ks : List HKey) (h : Heap) (D : HEnts) (out : Heap × HEnts × HEnts), processAllH n h D ks = .ok out → Untouched k e r rs std h D →
      ((∃ txt, LongText k.2 std txt ∧ [Atom.str txt] <+: out.1 r) ∨ (k ∉ ks ∧ Untouched k e r rs std out.1 out.2.1)) := by
  intro ks
  induction ks with
  | nil =>
    intro h D out hp hU
    injection hp with hp
    subst hp
    exact Or.inr ⟨by simp, hU⟩
  | cons j ks ih =>
    intro h D out hp hU
    unfold processAllH at hp
    obtain ⟨a, ha, hp⟩ := exceptBind_inv hp
    obtain ⟨b, hb, hp⟩ := exceptBind_inv hp
    injection hp with hp
    subst hp
    rcases processH_text k e r rs std hg hs n h D j a ha hU with ⟨txt, t1, t2⟩ | ⟨h1, h2⟩
    · exact Or.inl ⟨txt, t1, t2.trans (processAllH_prefix n _ _ _ _ hb r)⟩
    · rcases ih _ _ _ hb h2 with h3 | ⟨h3, h4⟩
      · exact Or.inl h3
      · exact Or.inr ⟨by simp only [List.mem_cons, not_or]; exact ⟨fun h => h1 h.symm, h3⟩, h4⟩

/-- the entry of an item, at any path -/
theorem entry_of_paths (cat name : String) (D : PD) (hc : cat ∈ cfCats) (q1 q2 : List String) (v1 v2 : PV) (h1 : q1 ≠ [])
    (hg1 : getPath (cat :: name :: q1) (.dict D) = some v1) (hg2 : getPath (cat :: name :: q2) (.dict D) = some v2) :
    ∃ e, lookupH (cat, name) (entsOf "data_vars" D ++ entsOf "coords" D) = some e ∧ getPath q1 (.dict e) = some v1 ∧ getPath q2 (.dict e) = some v2 := by
  rw [getPath_cons] at hg1 hg2
  cases hs : lookupK cat D with
  | none => rw [hs] at hg1; cases hg1
  | some v =>
    rw [hs, Option.bind_some] at hg1 hg2
    cases v with
    | dict s =>
      rw [getPath_cons] at hg1 hg2
      cases he : lookupK name s with
      | none => rw [he] at hg1; cases hg1
      | some w =>
        rw [he, Option.bind_some] at hg1 hg2
        cases w with
        | dict e =>
          have hle := lookupH_entsOf cat name D s e hs he
          refine ⟨e, ?_, hg1, hg2⟩
          rw [lookupH_append]
          simp only [cfCats, List.mem_cons, List.not_mem_nil, or_false] at hc
          rcases hc with rfl | rfl
          · rw [hle]; rfl
          · have : lookupH ("coords", name) (entsOf "data_vars" D) = none := by
              cases hx : lookupH ("coords", name) (entsOf "data_vars" D) with
              | none => rfl
              | some y =>
                obtain ⟨p, hp1, hp2⟩ := List.mem_map.mp ((lookupH_isSome _ _).1 ⟨y, hx⟩)
                have := entsOf_cat "data_vars" D p hp1
                rw [hp2] at this
                exact absurd (show "coords" = "data_vars" from this) (by decide)
            rw [this, hle]; rfl
        | _ => cases q1 with
          | nil => exact absurd rfl h1
          | cons _ _ => cases hg1
    | _ => cases hg1

/-- an entry of the two categories -/
theorem lookupH_ents (cat name : String) (D e : PD) (h : lookupH (cat, name) (entsOf "data_vars" D ++ entsOf "coords" D) = some e) :
    cat ∈ cfCats ∧ ∃ s, lookupK cat D = some (.dict s) ∧ (name, .dict e) ∈ s := by
  have hmem : ∀ l : HEnts, lookupH (cat, name) l = some e → ((cat, name), e) ∈ l := by
    intro l
    induction l with
    | nil => intro h; cases h
    | cons x l ih =>
      intro h
      unfold lookupH at h
      split at h
      · next hk => injection h with h; rw [hk, ← h]; exact List.mem_cons_self
      · exact List.mem_cons_of_mem _ (ih h)
  have hone : ∀ c, ((cat, name), e) ∈ entsOf c D → cat = c ∧ ∃ s, lookupK cat D = some (.dict s) ∧ (name, .dict e) ∈ s := by
    intro c hm
    have hcc := entsOf_cat c D _ hm
    simp only at hcc
    subst hcc
    refine ⟨rfl, ?_⟩
    unfold entsOf at hm
    split at hm
    · next s hs =>
      obtain ⟨p, hp1, hp2⟩ := List.mem_filterMap.1 hm
      obtain ⟨a1, a2⟩ := entItem_some _ p _ hp2
      simp only at a1 a2
      injection a1 with _ a1
      refine ⟨s, hs, ?_⟩
      have : p = (name, .dict e) := by rw [← a2, a1]
      rw [← this]; exact hp1
    · cases hm
  rcases List.mem_append.1 (hmem _ h) with hm | hm
  · obtain ⟨a, b⟩ := hone _ hm
    exact ⟨by rw [a]; decide, b⟩
  · obtain ⟨a, b⟩ := hone _ hm
    exact ⟨by rw [a]; decide, b⟩

/-- **C128** (text of the long names): when no configuration gives a long name to an item, its first long name after the load is made of its
first standard name, and of its name if it has no standard name; underscores become spaces and only the first letter is a capital. Here
`h` and `D` are the merge of the configurations, in which no other item has the same list objects. -/
theorem C128_long_text (n : Nat) (st : CfSess) (srcs : List CfSrc) (dd : List PD) (hs : srcDicts st srcs = .ok dd) (out : CfSess × PD)
    (hp : loadSpecs n st srcs = .ok out) (h : Heap) (D : PD) (hD : (h, D) = dictMerge cfMergeOpts st.heap dd)
    (cat name : String) (hc : cat ∈ cfCats) (r rs : Nat)
    (hr : getPath [cat, name, "attrs", "long_name"] (.dict D) = some (.list r)) (hempty : h r = [])
    (hrs : getPath [cat, name, "attrs", "standard_name"] (.dict D) = some (.list rs))
    (halone : ∀ c s k e, c ∈ cfCats → lookupK c D = some (.dict s) → (k, e) ∈ s → (c, k) ≠ (cat, name) → ¬ Occ r e ∧ ¬ Occ rs e) :
    ∃ txt, LongText name (h rs) txt ∧ (out.1.heap r).head? = some (.str txt) := by
  obtain ⟨dd', o, g0, h2, h3, -⟩ := loadSpecs_inv n st srcs out hp
  rw [hs] at g0
  cases g0
  rw [← hD] at h2
  rw [h3]
  obtain ⟨r1, r2, dims, k1, k2, -, k3, -⟩ := postH_inv n _ _ o h2
  obtain ⟨e, he0, he1, he2⟩ := entry_of_paths cat name D hc ["attrs", "long_name"] ["attrs", "standard_name"] _ _ (by simp) hr hrs
  have hU : Untouched (cat, name) e r rs (h rs) h (entsOf "data_vars" D ++ entsOf "coords" D) := by
    refine ⟨he0, hempty, rfl, ?_⟩
    intro k' e' hk' hl'
    obtain ⟨c', n'⟩ := k'
    obtain ⟨b1, s, b2, b3⟩ := lookupH_ents c' n' D e' hl'
    exact halone c' s n' _ b1 b2 b3 hk'
  have p2 := processAllH_prefix n _ _ _ _ k2 r
  have p3 := allDimsH_prefix dims _ _ _ k3 r
  have hfin : ∀ txt, [Atom.str txt] <+: o.1 r → (o.1 r).head? = some (.str txt) := by
    rintro txt ⟨l, hl⟩
    rw [← hl]; rfl
  rcases processAllH_text (cat, name) e r rs (h rs) he1 he2 n _ _ _ _ k1 hU with ⟨txt, t1, t2⟩ | ⟨h5, h6⟩
  · exact ⟨txt, t1, hfin txt ((t2.trans p2).trans p3)⟩
  · rcases processAllH_text (cat, name) e r rs (h rs) he1 he2 n _ _ _ _ k2 h6 with ⟨txt, t1, t2⟩ | ⟨h7, -⟩
    · exact ⟨txt, t1, hfin txt (t2.trans p3)⟩
    · exfalso
      have hm := (lookupH_isSome _ _).1 ⟨e, he0⟩
      obtain ⟨-, -, c3⟩ := processAllH_items n _ _ _ _ k1
      simp only [cfCats, List.mem_cons, List.not_mem_nil, or_false] at hc
      rcases hc with rfl | rfl
      · apply h5
        refine List.mem_filter.mpr ⟨?_, by simp⟩
        rw [List.map_append, List.mem_append] at hm
        rcases hm with hm | hm
        · exact hm
        · obtain ⟨p, hp1, hp2⟩ := List.mem_map.mp hm
          have := entsOf_cat "coords" _ p hp1
          rw [hp2] at this
          exact absurd (show "data_vars" = "coords" from this) (by decide)
      · exact h7 (List.mem_filter.mpr ⟨(c3 _).2 hm, by simp⟩)

/-- the hypotheses of `C128_inherits` and `C128_long_text` are met: the coordinate `depth` inherits from the variable `temp`, which has no
list in common with it, and has a standard name but no long name -/
example : (loadSpecs 3 exAxisSess [.file "cf.cfg"]).toOption.isSome = true ∧ (srcDicts exAxisSess [.file "cf.cfg"]).toOption.isSome = true ∧
    Designates "coords" "data_vars:temp" ("data_vars", "temp") ∧ Designates "data_vars" "temp" ("data_vars", "temp") ∧
    (∀ c s k e, c ∈ cfCats → lookupK c exAxis = some (.dict s) → (k, e) ∈ s → (c, k) ≠ ("coords", "depth") → ¬ Occ 5 e ∧ ¬ Occ 4 e) ∧
    readable "ocean_depth" = "Ocean depth" := by
  refine ⟨by decide +kernel, by decide +kernel, Or.inr (by decide), Or.inl (by decide), ?_, by decide +kernel⟩
  intro c s k e hc hs hm hne
  simp only [cfCats, List.mem_cons, List.not_mem_nil, or_false] at hc
  rcases hc with rfl | rfl
  · simp only [exAxis, lookupK, if_true, Option.some.injEq, PV.dict.injEq] at hs
    subst hs
    simp only [List.mem_singleton, Prod.mk.injEq] at hm
    rw [hm.2]
    have key : ∀ i, (i ≠ 0 ∧ i ≠ 1 ∧ i ≠ 2) → ¬ Occ i (exItem 0 1 2 .none) := by
      intro i hi ho
      unfold exItem at ho
      obtain ⟨k1, v1, m1, o1⟩ := (Occ.dict_iff i _).1 ho
      simp only [List.mem_cons, Prod.mk.injEq, List.not_mem_nil, or_false] at m1
      rcases m1 with ⟨-, rfl⟩ | ⟨-, rfl⟩ | ⟨-, rfl⟩
      · cases o1; exact hi.1 rfl
      · obtain ⟨k2, v2, m2, o2⟩ := (Occ.dict_iff i _).1 o1
        simp only [List.mem_cons, Prod.mk.injEq, List.not_mem_nil, or_false] at m2
        rcases m2 with ⟨-, rfl⟩ | ⟨-, rfl⟩
        · cases o2; exact hi.2.1 rfl
        · cases o2; exact hi.2.2 rfl
      · cases o1
    exact ⟨key 5 (by decide), key 4 (by decide)⟩
  · simp only [exAxis, lookupK] at hs
    rw [if_neg (by decide)] at hs
    simp only [if_true, Option.some.injEq, PV.dict.injEq] at hs
    subst hs
    simp only [List.mem_singleton, Prod.mk.injEq] at hm
    exact absurd (by rw [hm.1]) hne

/-! ### what a coordinate does not inherit from a variable -/

theorem lookupK_dropH_none (f cat fromCat : String) (hne : cat ≠ fromCat) (h1 : f.toList ∉ catKeys cat.toList) (h2 : f.toList ∈ catKeys fromCat.toList)
    (e : PD) : lookupK f (dropH cat fromCat e) = none := by
  unfold dropH
  rw [if_neg hne]
  induction e with
  | nil => rfl
  | cons p e ih =>
    obtain ⟨a, b⟩ := p
    by_cases hf : f = a
    · subst hf
      rw [List.filter_cons_of_neg (by simp [h1, h2])]
      exact ih
    · by_cases hP : (!(decide (a.toList ∉ catKeys cat.toList) && decide (a.toList ∈ catKeys fromCat.toList))) = true
      · rw [List.filter_cons_of_pos (by simpa using hP), lookupK, if_neg hf]
        exact ih
      · rw [List.filter_cons_of_neg (by simpa using hP)]
        exact ih

/-- the entry `k` still has to inherit, or has inherited and has no field `f` -/
def NoField (k : HKey) (txt f : String) (D : HEnts) : Prop :=
  ∃ e, lookupH k D = some e ∧ (lookupK "inherit" e = some (.atom (.str txt)) ∨ lookupK "inherit" e = some .none ∧ lookupK f e = none)

theorem fromParent_noField (k p : HKey) (f : String) (hf : f ≠ "inherit") (hne : k.1 ≠ p.1) (h1 : f.toList ∉ catKeys k.1.toList)
    (h2 : f.toList ∈ catKeys p.1.toList) (h : Heap) (e pe : PD) :
    lookupK "inherit" (fromParent k p h e pe).2 = some .none ∧ lookupK f (fromParent k p h e pe).2 = none := by
  unfold fromParent
  simp only
  rw [lookupK_setK, if_pos rfl, lookupK_setK, if_neg hf]
  exact ⟨rfl, lookupK_dropH_none f k.1 p.1 hne h1 h2 _⟩

theorem processH_noField (k p : HKey) (txt f : String) (htxt : txt ≠ "") (hpar : parentOf k.1 txt = p) (hf : f ≠ "inherit") (hne : k.1 ≠ p.1)
    (h1 : f.toList ∉ catKeys k.1.toList) (h2 : f.toList ∈ catKeys p.1.toList) (n : Nat) :
    ∀ (h : Heap) (D : HEnts) (j : HKey) (out : Heap × HEnts × HEnts), processH n h D j = .ok out → NoField k txt f D →
      NoField k txt f out.2.1 ∧ ∀ x ∈ out.2.2, x.1 = k → lookupK f x.2 = none := by
  induction n with
  | zero => intro h D j out hp; cases hp
  | succ m ih =>
    intro h D j out hp hP
    obtain ⟨m', e, h1', t, hm, hl, hh, ht, ho⟩ := processH_inv_text _ h D j out hp
    cases hm
    have hcase : j = k → (t = some txt ∨ t = none ∧ lookupK f e = none) := by
      rintro rfl
      obtain ⟨e', a1, a2⟩ := hP
      rw [hl] at a1
      cases a1
      unfold inheritH at ht
      rcases a2 with a2 | ⟨a2, a3⟩
      · rw [a2] at ht
        have : isEmptyPV h1' (.atom (.str txt)) = false := by
          simp only [isEmptyPV, String.isEmpty_eq_false_iff]; exact htxt
        simp only [this, Bool.false_eq_true, if_false] at ht
        injection ht with ht
        exact Or.inl ht.symm
      · rw [a2] at ht
        simp only [isEmptyPV, if_true] at ht
        injection ht with ht
        exact Or.inr ⟨ht.symm, a3⟩
    rcases ho with ⟨h0, ho⟩ | ⟨tx, o, pe, h0, hq, hpe, ho⟩
    · rw [ho]
      refine ⟨hP, ?_⟩
      intro x hx hxk
      simp only [List.mem_singleton] at hx
      subst hx
      rcases hcase hxk with h3 | ⟨-, h3⟩
      · rw [h0] at h3; cases h3
      · exact h3
    · obtain ⟨i1, i2⟩ := ih _ _ _ _ hq hP
      rw [ho]
      by_cases hjk : j = k
      · subst hjk
        rcases hcase rfl with h3 | ⟨h3, -⟩
        · rw [h0] at h3
          injection h3 with h3
          subst h3
          rw [hpar]
          have hfp := fromParent_noField j p f hf hne h1 h2 o.1 e pe
          refine ⟨⟨_, ?_, Or.inr hfp⟩, ?_⟩
          · simp only [lookupH_setH, if_true]
          · intro x hx hxk
            rcases List.mem_append.1 hx with hx | hx
            · exact i2 x hx hxk
            · simp only [List.mem_singleton] at hx
              subst hx
              exact hfp.2
        · rw [h0] at h3; cases h3
      · refine ⟨?_, ?_⟩
        · obtain ⟨e', b1, b2⟩ := i1
          refine ⟨e', ?_, b2⟩
          simp only [lookupH_setH]
          rw [if_neg (fun h => hjk h.symm)]
          exact b1
        · intro x hx hxk
          rcases List.mem_append.1 hx with hx | hx
          · exact i2 x hx hxk
          · simp only [List.mem_singleton] at hx
            subst hx
            exact absurd hxk hjk

theorem processAllH_noField (k p : HKey) (txt f : String) (htxt : txt ≠ "") (hpar : parentOf k.1 txt = p) (hf : f ≠ "inherit") (hne : k.1 ≠ p.1)
    (h1 : f.toList ∉ catKeys k.1.toList) (h2 : f.toList ∈ catKeys p.1.toList) (n : Nat) :
    ∀ (ks : List HKey) (h : Heap) (D : HEnts) (out : Heap × HEnts × HEnts), processAllH n h D ks = .ok out → NoField k txt f D →
      NoField k txt f out.2.1 ∧ ∀ x ∈ out.2.2, x.1 = k → lookupK f x.2 = none := by
  intro ks
  induction ks with
  | nil =>
    intro h D out hp hP
    injection hp with hp
    subst hp
    exact ⟨hP, by simp⟩
  | cons j ks ih =>
    intro h D out hp hP
    unfold processAllH at hp
    obtain ⟨a, ha, hp⟩ := exceptBind_inv hp
    obtain ⟨b, hb, hp⟩ := exceptBind_inv hp
    injection hp with hp
    subst hp
    obtain ⟨c1, c2⟩ := processH_noField k p txt f htxt hpar hf hne h1 h2 n h D j a ha hP
    obtain ⟨d1, d2⟩ := ih _ _ _ hb c1
    refine ⟨d1, ?_⟩
    intro x hx
    rcases List.mem_append.1 hx with hx | hx
    · exact c2 x hx
    · exact d2 x hx

/-- **C128** (inheritance): in the specifications that a load gives, a coordinate that inherits from a data variable has none of the fields
that only data variables have, although the variable may have them. -/
theorem C128_cross (n : Nat) (st : CfSess) (srcs : List CfSrc) (dd : List PD) (hs : srcDicts st srcs = .ok dd) (out : CfSess × PD)
    (hp : loadSpecs n st srcs = .ok out) (D : PD) (hD : D = (dictMerge cfMergeOpts st.heap dd).2) (name pname txt f : String)
    (hf : f = "cmap" ∨ f = "squeeze" ∨ f = "select")
    (hi : getPath ["coords", name, "inherit"] (.dict D) = some (.atom (.str txt))) (htxt : txt ≠ "")
    (hd : Designates "coords" txt ("data_vars", pname)) :
    getPath ["coords", name, f] (.dict out.2) = none := by
  obtain ⟨dd', o, g0, h2, h3, h4⟩ := loadSpecs_inv n st srcs out hp
  rw [hs] at g0
  cases g0
  subst hD
  rw [h4]
  obtain ⟨r1, r2, dims, k1, k2, -, k3, k4⟩ := postH_inv n _ _ o h2
  have hc : "coords" ∈ cfCats := by simp [cfCats]
  obtain ⟨e, he0, he1, -⟩ := entry_of_paths "coords" name _ hc ["inherit"] ["inherit"] _ _ (by simp) hi hi
  have hinh : lookupK "inherit" e = some (.atom (.str txt)) := by
    rw [getPath_cons] at he1
    cases hy : lookupK "inherit" e with
    | none => rw [hy] at he1; cases he1
    | some z => rw [hy, Option.bind_some] at he1; simpa [getPath] using he1
  have hpar := parentOf_designates "coords" txt ("data_vars", pname) hd
  have kv : catKeys "data_vars".toList = ["name", "domain", "cmap", "inherit", "squeeze", "search_order", "attrs", "select"].map String.toList := rfl
  have kc : catKeys "coords".toList = ["name", "domain", "inherit", "search_order", "attrs"].map String.toList := by decide +kernel
  have hf1 : f.toList ∉ catKeys "coords".toList := by
    rw [kc]
    rcases hf with rfl | rfl | rfl <;> decide
  have hf2 : f.toList ∈ catKeys "data_vars".toList := by
    rw [kv]
    rcases hf with rfl | rfl | rfl <;> decide
  have hf3 : f ≠ "inherit" := by rcases hf with rfl | rfl | rfl <;> decide
  have hN : NoField ("coords", name) txt f (entsOf "data_vars" (dictMerge cfMergeOpts st.heap dd).2 ++ entsOf "coords" (dictMerge cfMergeOpts st.heap dd).2) :=
    ⟨e, he0, Or.inl hinh⟩
  obtain ⟨a1, a2⟩ := processAllH_noField ("coords", name) ("data_vars", pname) txt f htxt hpar hf3 (show "coords" ≠ "data_vars" by decide) hf1 hf2 n _ _ _ _ k1 hN
  obtain ⟨b1, b2⟩ := processAllH_noField ("coords", name) ("data_vars", pname) txt f htxt hpar hf3 (show "coords" ≠ "data_vars" by decide) hf1 hf2 n _ _ _ _ k2 a1
  rw [k4, getPath_cons, lookupK_setK, if_pos rfl, Option.bind_some, getPath_cons]
  cases hl : lookupK name (refillH "coords" (r1.2.2 ++ r2.2.2)) with
  | none => rfl
  | some v =>
    obtain ⟨e', m1, rfl⟩ := (refillH_lookup "coords" name _).1 v hl
    rw [Option.bind_some, getPath_cons]
    have : lookupK f e' = none := by
      rcases List.mem_append.1 m1 with m1 | m1
      · exact a2 _ m1 rfl
      · exact b2 _ m1 rfl
    rw [this]
    rfl

/-- a variable `temp` with a squeezed dimension, and a coordinate `depth` that inherits from it -/
def exCross : PD :=
  [("data_vars", .dict [("temp", .dict [("squeeze", .atom (.str "y")), ("domain", .atom (.str "ocean")), ("name", .list 0),
      ("attrs", .dict [("standard_name", .list 1), ("long_name", .list 2)])])]),
    ("coords", .dict [("depth", .dict [("inherit", .atom (.str "data_vars:temp")), ("name", .list 3),
      ("attrs", .dict [("standard_name", .list 4), ("long_name", .list 5), ("axis", .none)])])]), ("dims", .dict [])]

/-- the hypotheses of `C128_cross` are met: `depth` gets the field `domain` of the variable but not the field `squeeze` -/
example :
    ((loadSpecs 3 ⟨fun r => if r = 0 then [.str "temp"] else [], [("cf.cfg", exCross)]⟩ [.file "cf.cfg"]).toOption.map fun o =>
      ((getPath ["coords", "depth", "domain"] (.dict o.2)).isSome, (getPath ["coords", "depth", "squeeze"] (.dict o.2)).isSome,
        (getPath ["data_vars", "temp", "squeeze"] (.dict o.2)).isSome)) = some (true, false, true) ∧
    (getPath ["coords", "depth", "inherit"] (.dict exCross)).isSome = true ∧ Designates "coords" "data_vars:temp" ("data_vars", "temp") :=
  ⟨by decide +kernel, by decide +kernel, Or.inr (by decide)⟩

end Xoa
