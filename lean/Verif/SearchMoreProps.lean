import Verif.CfMatchProps

/-!
# C231: what the search of a CF item depends on

The attributes of the variables other than the five matching ones, the variables that do not match, and the order of the variables.
-/

namespace Xoa

/-! ## other attributes -/

/-- the two objects have the same name, standard name, long name, axis and units, or lack them both -/
def SameForMatch (o o' : DObj) : Prop := ∀ a ∈ matchable, o.get a = o'.get a

theorem SameForMatch.name {o o' : DObj} (h : SameForMatch o o') : o.name = o'.name := by
  have := h "name".toList (by decide)
  unfold DObj.get at this
  rw [if_pos rfl, if_pos rfl] at this
  revert this
  cases o.name <;> cases o'.name <;> simp

theorem matchCrits_same (sg : SG) (loc : MLoc) (o o' : DObj) (cs : List (Str × Refs)) (h : ∀ c ∈ cs, o.get c.1 = o'.get c.1) :
    matchCrits sg loc o cs = matchCrits sg loc o' cs := by
  induction cs with
  | nil => rfl
  | cons c cs ih =>
    unfold matchCrits matchCrit
    rw [h c (by simp), ih fun c hc => h c (by simp [hc])]

/-- **C231 (attributes).** The recognition of an array depends on its name, standard name, long name, axis and units only. -/
theorem C231_attributes (sg : SG) (cat : CfCat) (loc : MLoc) (o o' : DObj) (h : SameForMatch o o') :
    (∀ name, matchName sg cat loc o name = matchName sg cat loc o' name) ∧ matchAny sg cat loc o = matchAny sg cat loc o' := by
  have key : ∀ name spec, matchCrits sg loc o (orderedCrits name spec) = matchCrits sg loc o' (orderedCrits name spec) := fun name spec =>
    matchCrits_same sg loc o o' _ fun c hc => h c.1 (C43_criteria_sound name spec c.1 c.2 hc).1
  constructor
  · intro name
    unfold matchName
    cases lookupS name cat with
    | none => rfl
    | some spec => exact key name spec
  · unfold matchAny
    induction cat with
    | nil => rfl
    | cons p cat ih =>
      obtain ⟨n, spec⟩ := p
      unfold matchAnyIn
      rw [key, ih]

/-! ## the exact result of a search -/

/-- the objects that satisfy the first criterion, then, among the others, those that satisfy the second one, and so on -/
def ranked : List (DObj → Bool) → List DObj → List DObj
  | [], _ => []
  | c :: cs, objs => objs.filter c ++ ranked cs (objs.filter fun o => !c o)

theorem mem_ranked (cs : List (DObj → Bool)) (objs : List DObj) (o : DObj) : o ∈ ranked cs objs ↔ o ∈ objs ∧ ∃ c ∈ cs, c o = true := by
  induction cs generalizing objs with
  | nil => simp [ranked]
  | cons c cs ih =>
    simp only [ranked, List.mem_append, List.mem_filter, ih, List.mem_cons, exists_eq_or_imp]
    by_cases h : c o = true
    · simp [h]
    · simp [h]

theorem ranked_again (cs : List (DObj → Bool)) (objs : List DObj) : ranked cs (ranked cs objs) = ranked cs objs := by
  induction cs generalizing objs with
  | nil => rfl
  | cons c cs ih =>
    have hb : ∀ o ∈ ranked cs (objs.filter fun o => !c o), c o = false := by
      intro o ho
      have := ((mem_ranked _ _ _).1 ho).1
      simpa using (List.mem_filter.1 this).2
    simp only [ranked, List.filter_append, List.filter_filter, Bool.and_self]
    have e1 : (ranked cs (objs.filter fun o => !c o)).filter c = [] := List.filter_eq_nil_iff.2 fun o ho => by rw [hb o ho]; simp
    have e2 : (ranked cs (objs.filter fun o => !c o)).filter (fun o => !c o) = ranked cs (objs.filter fun o => !c o) :=
      List.filter_eq_self.2 fun o ho => by rw [hb o ho]; rfl
    have e3 : (objs.filter fun o => !c o && c o) = [] := List.filter_eq_nil_iff.2 fun o _ => by simp
    rw [e1, e2, e3, List.nil_append, ih, List.append_nil]

theorem ranked_perm (cs : List (DObj → Bool)) {objs objs' : List DObj} (h : objs.Perm objs') : (ranked cs objs).Perm (ranked cs objs') := by
  induction cs generalizing objs objs' with
  | nil => exact List.Perm.refl _
  | cons c cs ih => exact (h.filter c).append (ih (h.filter _))

theorem ranked_filter (cs : List (DObj → Bool)) (objs : List DObj) (keep : DObj → Bool) (h : ∀ o ∈ objs, keep o = false → ∀ c ∈ cs, c o = false) :
    ranked cs (objs.filter keep) = ranked cs objs := by
  induction cs generalizing objs with
  | nil => rfl
  | cons c cs ih =>
    have e1 : (objs.filter keep).filter c = objs.filter c := by
      rw [List.filter_filter]
      refine List.filter_congr fun o ho => ?_
      cases hk : keep o with
      | true => simp
      | false => rw [h o ho hk c (by simp)]; rfl
    have e2 : (objs.filter keep).filter (fun o => !c o) = (objs.filter fun o => !c o).filter keep := by
      rw [List.filter_filter, List.filter_filter]
      exact List.filter_congr fun o _ => Bool.and_comm _ _
    simp only [ranked]
    rw [e1, e2, ih _ fun o ho hk c' hc' => h o (List.mem_filter.1 ho).1 hk c' (by simp [hc'])]

/-- the state of the loops of `search` for a name when `F` has been found -/
def foundState (name : Str) (F : List DObj) : SearchSt := ⟨F.map fun o => (o, name), F.map DObj.name, some name⟩

/-- the test gives the requested name to the objects of the list that satisfy the condition, and nothing to the others -/
def TestIs (name : Str) (t : DObj → Except MErr (Option Str)) (p : DObj → Bool) (objs : List DObj) : Prop :=
  ∀ o ∈ objs, t o = .ok (if p o = true then some name else none)

theorem searchObjs_ranked (name : Str) (t : DObj → Except MErr (Option Str)) (p : DObj → Bool) (os F : List DObj) (ht : TestIs name t p os)
    (hn : (os.map DObj.name).Nodup) :
    searchObjs t os (foundState name F) = .ok (foundState name (F ++ os.filter fun o => p o && decide (o.name ∉ F.map DObj.name))) := by
  induction os generalizing F with
  | nil => simp [searchObjs]
  | cons o os ih =>
    have h0 := ht o (by simp)
    have hn' := List.nodup_cons.1 (by simpa using hn : (o.name :: os.map DObj.name).Nodup)
    unfold searchObjs searchObj
    rw [h0]
    by_cases hp : p o = true
    · rw [if_pos hp]
      simp only [Except.bind, Option.elim_some]
      by_cases hs : o.name ∈ F.map DObj.name
      · rw [if_pos (show o.name ∈ (foundState name F).seen from hs)]
        dsimp only
        rw [ih F (fun o ho => ht o (by simp [ho])) hn'.2]
        rw [List.filter_cons_of_neg (by simp only [decide_not, Bool.and_eq_true, Bool.not_eq_true', decide_eq_false_iff_not, not_and, not_not]; exact fun _ => hs)]
      · rw [if_neg (show o.name ∉ (foundState name F).seen from hs)]
        dsimp only
        have e : (⟨(foundState name F).found ++ [(o, (foundState name F).name.getD name)], (foundState name F).seen ++ [o.name],
            some ((foundState name F).name.getD name)⟩ : SearchSt) = foundState name (F ++ [o]) := by
          simp [foundState]
        rw [e, ih (F ++ [o]) (fun o ho => ht o (by simp [ho])) hn'.2]
        rw [List.filter_cons_of_pos (by simp only [decide_not, Bool.and_eq_true, Bool.not_eq_true', decide_eq_false_iff_not]; exact ⟨hp, hs⟩), List.append_assoc]
        congr 3
        rw [List.singleton_append]
        congr 1
        refine List.filter_congr fun o' ho' => ?_
        congr 1
        rw [decide_eq_decide]
        have hne : o'.name ≠ o.name := fun e => hn'.1 (e ▸ List.mem_map_of_mem ho')
        simp only [List.map_append, List.map_cons, List.map_nil, List.mem_append, List.mem_singleton, hne, or_false]
    · rw [if_neg hp]
      simp only [Except.bind, Option.elim_none]
      rw [ih F (fun o ho => ht o (by simp [ho])) hn'.2]
      rw [List.filter_cons_of_neg (by simp [hp])]

theorem searchLoop_ranked {α : Type} (name : Str) (t : α → DObj → Except MErr (Option Str)) (p : α → DObj → Bool) (cs : List α) (objs F : List DObj)
    (ht : ∀ c ∈ cs, TestIs name (t c) (p c) objs) (hn : (objs.map DObj.name).Nodup) :
    searchLoop objs (cs.map t) (foundState name F) =
      .ok (foundState name (F ++ ranked (cs.map p) (objs.filter fun o => decide (o.name ∉ F.map DObj.name)))) := by
  induction cs generalizing F with
  | nil => simp [searchLoop, ranked]
  | cons c cs ih =>
    simp only [List.map_cons, searchLoop, ranked]
    rw [searchObjs_ranked name (t c) (p c) objs F (ht c (by simp)) hn]
    simp only [Except.bind]
    rw [ih _ fun c hc => ht c (by simp [hc]), List.append_assoc, List.filter_filter, List.filter_filter]
    congr 4
    have hr : (objs.filter fun o => decide (o.name ∉ (F ++ objs.filter fun o => p c o && decide (o.name ∉ F.map DObj.name)).map DObj.name)) =
        objs.filter fun a => !p c a && decide (a.name ∉ F.map DObj.name) := by
      refine List.filter_congr fun o ho => ?_
      rw [Bool.eq_iff_iff]
      simp only [decide_eq_true_eq, List.map_append, List.mem_append, not_or, Bool.and_eq_true, Bool.not_eq_true']
      constructor
      · rintro ⟨h1, h2⟩
        refine ⟨?_, h1⟩
        by_contra hp
        exact h2 (List.mem_map_of_mem (List.mem_filter.2 ⟨ho, by simp only [Bool.and_eq_true, decide_eq_true_eq]; exact ⟨by simpa using hp, h1⟩⟩))
      · rintro ⟨h1, h2⟩
        refine ⟨h2, fun hm => ?_⟩
        obtain ⟨o', ho', e⟩ := List.mem_map.1 hm
        obtain ⟨ho', hq⟩ := List.mem_filter.1 ho'
        rw [name_inj hn ho' ho e] at hq
        rw [h1] at hq
        simp at hq
    rw [hr]

open Classical in
/-- the condition of a criterion, as a test -/
noncomputable def critOf (sg : SG) (loc : MLoc) (c : Str × Refs) (o : DObj) : Bool := decide (Satisfies sg loc o c)

/-- when a search for a name ends, the tests of its criteria end on all the variables of the dataset -/
theorem search_tests (sg : SG) (loc : MLoc) (objs : List DObj) (name : Str) (spec : CfSpec) (found : List (DObj × Str))
    (h : searchNameAll sg loc objs name spec = .ok found) :
    ∀ c ∈ orderedCrits name spec, TestIs name (critTest sg loc name c) (critOf sg loc c) objs := by
  obtain ⟨st, -, hi⟩ := searchNameAll_inv sg loc objs name spec found h
  intro c hc o ho
  obtain ⟨m, hm⟩ := hi.defined (critTest sg loc name c, o) ((mem_visits _ _ _).2 ⟨List.mem_map_of_mem hc, ho⟩)
  dsimp only at hm
  rw [hm]
  unfold critOf
  rcases critTest_iff sg loc name c o m hm with ⟨rfl, hs⟩ | ⟨rfl, hs⟩
  · simp [hs]
  · simp [hs]

theorem search_of_tests (sg : SG) (loc : MLoc) (objs : List DObj) (name : Str) (spec : CfSpec) (hn : (objs.map DObj.name).Nodup)
    (ht : ∀ c ∈ orderedCrits name spec, TestIs name (critTest sg loc name c) (critOf sg loc c) objs) :
    searchNameAll sg loc objs name spec = .ok ((ranked ((orderedCrits name spec).map (critOf sg loc)) objs).map fun o => (o, name)) := by
  unfold searchNameAll
  have := searchLoop_ranked name (critTest sg loc name) (critOf sg loc) (orderedCrits name spec) objs [] ht hn
  rw [show foundState name [] = (⟨[], [], some name⟩ : SearchSt) from rfl] at this
  rw [this]
  simp [Except.map, foundState]

/-- **C231 (exact).** The multiple search for a name in a dataset gives the variables that satisfy the first criterion in the order of the dataset, then
those of the others that satisfy the second criterion, and so on, all labelled with the requested name. -/
theorem C231_exact (sg : SG) (loc : MLoc) (objs : List DObj) (hn : (objs.map DObj.name).Nodup) (name : Str) (spec : CfSpec) (found : List (DObj × Str))
    (h : searchNameAll sg loc objs name spec = .ok found) :
    found = (ranked ((orderedCrits name spec).map (critOf sg loc)) objs).map fun o => (o, name) := by
  have := search_of_tests sg loc objs name spec hn (search_tests sg loc objs name spec found h)
  rw [h] at this
  exact Except.ok.inj this

theorem TestIs.of_mem {name : Str} {t : DObj → Except MErr (Option Str)} {p : DObj → Bool} {objs objs' : List DObj} (h : TestIs name t p objs)
    (hm : ∀ o ∈ objs', o ∈ objs) : TestIs name t p objs' := fun o ho => h o (hm o ho)

/-- **C231 (again).** Searching for the same name among the variables that were found gives them again, in the same order. -/
theorem C231_again (sg : SG) (loc : MLoc) (objs : List DObj) (hn : (objs.map DObj.name).Nodup) (name : Str) (spec : CfSpec) (found : List (DObj × Str))
    (h : searchNameAll sg loc objs name spec = .ok found) :
    searchNameAll sg loc (found.map Prod.fst) name spec = .ok found := by
  have ht := search_tests sg loc objs name spec found h
  have hnd := (C43_search_found_iff sg loc objs name spec found hn h).2
  have he := C231_exact sg loc objs hn name spec found h
  have hf : found.map Prod.fst = ranked ((orderedCrits name spec).map (critOf sg loc)) objs := by
    rw [he, List.map_map]
    show List.map (fun o => o) _ = _
    simp
  have hsub : ∀ o ∈ found.map Prod.fst, o ∈ objs := fun o ho => by rw [hf] at ho; exact ((mem_ranked _ _ _).1 ho).1
  have hnn : ((found.map Prod.fst).map DObj.name).Nodup := by
    refine List.Nodup.map_on ?_ hnd
    intro a ha b hb e
    exact name_inj hn (hsub a ha) (hsub b hb) e
  rw [search_of_tests sg loc _ name spec hnn fun c hc => (ht c hc).of_mem hsub, hf, ranked_again, ← he]

/-- **C231 (order of the dataset).** With its variables in another order, the search of a dataset finds the same variables. When one variable is found, or
none, the single search gives the same answer, whatever the way of handling the errors. -/
theorem C231_order (sg : SG) (cat : CfCat) (loc : MLoc) (objs objs' : List DObj) (hn : (objs.map DObj.name).Nodup) (hp : objs.Perm objs') (name : Str)
    (spec : CfSpec) (found : List (DObj × Str)) (h : searchNameAll sg loc objs name spec = .ok found) :
    ∃ found', searchNameAll sg loc objs' name spec = .ok found' ∧ found'.Perm found ∧
      (found.length ≤ 1 → lookupS name cat = some spec → ∀ e, searchName sg cat loc objs' name e = searchName sg cat loc objs name e) := by
  have ht := search_tests sg loc objs name spec found h
  have he := C231_exact sg loc objs hn name spec found h
  have hn' : (objs'.map DObj.name).Nodup := (hp.map _).nodup_iff.1 hn
  have h' := search_of_tests sg loc objs' name spec hn' fun c hc => (ht c hc).of_mem fun o ho => hp.mem_iff.2 ho
  have hperm : ((ranked ((orderedCrits name spec).map (critOf sg loc)) objs').map fun o => (o, name)).Perm found := by
    rw [he]; exact ((ranked_perm _ hp).map _).symm
  refine ⟨_, h', hperm, fun hl hs e => ?_⟩
  unfold searchName
  rw [hs]
  dsimp only
  rw [h', h]
  have : ((ranked ((orderedCrits name spec).map (critOf sg loc)) objs').map fun o => (o, name)) = found := by
    match found, hl, hperm with
    | [], _, hperm => exact hperm.eq_nil
    | [x], _, hperm => exact List.perm_singleton.1 hperm
  rw [this]

/-- the variables that do not match do not change the state of the loop -/
theorem searchLoop_drop (objs : List DObj) (keep : DObj → Bool) (ts : List (DObj → Except MErr (Option Str)))
    (h : ∀ o ∈ objs, keep o = false → ∀ t ∈ ts, t o = .ok none) (st : SearchSt) : searchLoop (objs.filter keep) ts st = searchLoop objs ts st := by
  have h1 : ∀ t ∈ ts, ∀ (os : List DObj), (∀ o ∈ os, o ∈ objs) → ∀ st, searchObjs t (os.filter keep) st = searchObjs t os st := by
    intro t ht os
    induction os with
    | nil => intro _ st; rfl
    | cons o os ih =>
      intro hm st
      have ih' := ih fun o ho => hm o (by simp [ho])
      cases hk : keep o with
      | true =>
        rw [List.filter_cons_of_pos hk]
        unfold searchObjs
        cases searchObj t st o with
        | error e => rfl
        | ok s => exact ih' s
      | false =>
        rw [List.filter_cons_of_neg (by simp [hk]), ih']
        conv_rhs => unfold searchObjs
        unfold searchObj
        rw [h o (hm o (by simp)) hk t ht]
        rfl
  induction ts generalizing st with
  | nil => rfl
  | cons t ts ih =>
    unfold searchLoop
    rw [h1 t (by simp) objs (fun o ho => ho)]
    cases searchObjs t objs st with
    | error e => rfl
    | ok s => exact ih (fun o ho hk t ht => h o ho hk t (by simp [ht])) s (fun t ht => h1 t (by simp [ht]))

theorem matchCrits_no (sg : SG) (loc : MLoc) (o : DObj) (cs : List (Str × Refs)) (h : matchCrits sg loc o cs = .ok false) :
    ∀ c ∈ cs, matchCrits sg loc o [c] = .ok false := by
  induction cs with
  | nil => simp
  | cons c cs ih =>
    unfold matchCrits at h
    cases hc : matchCrit sg loc o c with
    | error e => rw [hc] at h; simp [Except.bind] at h
    | ok b =>
      rw [hc] at h
      simp only [Except.bind] at h
      cases b with
      | true => simp at h
      | false =>
        simp only [Bool.false_eq_true, if_false] at h
        intro c' hc'
        rcases List.mem_cons.1 hc' with rfl | hc'
        · unfold matchCrits; rw [hc]; rfl
        · exact ih h c' hc'

/-- **C231 (other variables).** The variables that do not match a name, or that do not match any name, change nothing to the search for this name, or for any
name: the result, its order and its labels are the same without them, the exceptions too. -/
theorem C231_other_variables (sg : SG) (cat : CfCat) (loc : MLoc) (objs : List DObj) (keep : DObj → Bool) :
    (∀ name spec, lookupS name cat = some spec → (∀ o ∈ objs, keep o = false → matchName sg cat loc o name = .ok false) →
      searchNameAll sg loc (objs.filter keep) name spec = searchNameAll sg loc objs name spec ∧
      ∀ e, searchName sg cat loc (objs.filter keep) name e = searchName sg cat loc objs name e) ∧
    ((∀ o ∈ objs, keep o = false → matchAny sg cat loc o = .ok none) →
      searchAnyAll sg cat loc (objs.filter keep) = searchAnyAll sg cat loc objs ∧
      ∀ e, searchAny sg cat loc (objs.filter keep) e = searchAny sg cat loc objs e) := by
  constructor
  · intro name spec hs h
    have key : searchNameAll sg loc (objs.filter keep) name spec = searchNameAll sg loc objs name spec := by
      unfold searchNameAll
      rw [searchLoop_drop]
      intro o ho hk t ht
      obtain ⟨c, hc, rfl⟩ := List.mem_map.1 ht
      have hm := h o ho hk
      unfold matchName at hm
      rw [hs] at hm
      unfold critTest
      rw [matchCrits_no sg loc o _ hm c hc]
      rfl
    refine ⟨key, fun e => ?_⟩
    unfold searchName
    rw [hs]
    dsimp only
    rw [key]
  · intro h
    have key : searchAnyAll sg cat loc (objs.filter keep) = searchAnyAll sg cat loc objs := by
      unfold searchAnyAll
      rw [searchLoop_drop]
      intro o ho hk t ht
      rw [List.mem_singleton] at ht
      subst ht
      exact h o ho hk
    refine ⟨key, fun e => ?_⟩
    unfold searchAny
    rw [key]

/-! ## attributes of the variables of a dataset -/

theorem searchLoop_map (f : DObj → DObj) (objs : List DObj) (hf : ∀ o ∈ objs, (f o).name = o.name) (ts : List (DObj → Except MErr (Option Str)))
    (h : ∀ o ∈ objs, ∀ t ∈ ts, t (f o) = t o) (st : SearchSt) :
    searchLoop (objs.map f) ts ⟨st.found.map (fun x => (f x.1, x.2)), st.seen, st.name⟩ =
      (searchLoop objs ts st).map fun s => ⟨s.found.map (fun x => (f x.1, x.2)), s.seen, s.name⟩ := by
  have h1 : ∀ t ∈ ts, ∀ (os : List DObj), (∀ o ∈ os, o ∈ objs) → ∀ st : SearchSt,
      searchObjs t (os.map f) ⟨st.found.map (fun x => (f x.1, x.2)), st.seen, st.name⟩ =
        (searchObjs t os st).map fun s => ⟨s.found.map (fun x => (f x.1, x.2)), s.seen, s.name⟩ := by
    intro t ht os
    induction os with
    | nil => intro _ st; rfl
    | cons o os ih =>
      intro hm st
      have ih' := ih fun o ho => hm o (by simp [ho])
      have e1 := h o (hm o (by simp)) t ht
      have e2 := hf o (hm o (by simp))
      simp only [List.map_cons, searchObjs, searchObj]
      rw [e1, e2]
      cases t o with
      | error e => rfl
      | ok m =>
        cases m with
        | none => exact ih' st
        | some m =>
          simp only [Except.bind, Option.elim_some]
          by_cases hs : o.name ∈ st.seen
          · rw [if_pos hs, if_pos hs]; exact ih' st
          · rw [if_neg hs, if_neg hs]
            dsimp only
            have := ih' ⟨st.found ++ [(o, st.name.getD m)], st.seen ++ [o.name], some (st.name.getD m)⟩
            rw [List.map_append] at this
            exact this
  induction ts generalizing st with
  | nil => rfl
  | cons t ts ih =>
    unfold searchLoop
    rw [h1 t (by simp) objs (fun o ho => ho)]
    cases searchObjs t objs st with
    | error e => rfl
    | ok s => exact ih (fun o ho t ht => h o ho t (by simp [ht])) s (fun t ht => h1 t (by simp [ht]))

/-- **C231 (attributes, search).** Changing the attributes of the variables of a dataset, other than the name, the standard name, the long name, the axis and
the units, changes nothing to a search: the same variables are found, in the same order, with the same labels, or the same exception is raised. -/
theorem C231_attributes_search (sg : SG) (cat : CfCat) (loc : MLoc) (objs : List DObj) (f : DObj → DObj) (hf : ∀ o ∈ objs, SameForMatch o (f o)) :
    (∀ name spec, searchNameAll sg loc (objs.map f) name spec = (searchNameAll sg loc objs name spec).map (List.map fun x => (f x.1, x.2))) ∧
    searchAnyAll sg cat loc (objs.map f) = (searchAnyAll sg cat loc objs).map (List.map fun x => (f x.1, x.2)) := by
  have hn : ∀ o ∈ objs, (f o).name = o.name := fun o ho => (hf o ho).name.symm
  constructor
  · intro name spec
    unfold searchNameAll
    have := searchLoop_map f objs hn ((orderedCrits name spec).map (critTest sg loc name)) (by
      intro o ho t ht
      obtain ⟨c, hc, rfl⟩ := List.mem_map.1 ht
      unfold critTest
      rw [matchCrits_same sg loc o (f o) [c] fun c' hc' => by
        rw [List.mem_singleton] at hc'
        subst hc'
        exact hf o ho c'.1 (C43_criteria_sound name spec c'.1 c'.2 hc).1]) ⟨[], [], some name⟩
    simp only [List.map_nil] at this
    rw [this]
    cases searchLoop objs ((orderedCrits name spec).map (critTest sg loc name)) ⟨[], [], some name⟩ <;> rfl
  · unfold searchAnyAll
    have := searchLoop_map f objs hn [matchAny sg cat loc] (by
      intro o ho t ht
      rw [List.mem_singleton] at ht
      subst ht
      exact (C231_attributes sg cat loc o (f o) (hf o ho)).2.symm) ⟨[], [], none⟩
    simp only [List.map_nil] at this
    rw [this]
    cases searchLoop objs [matchAny sg cat loc] ⟨[], [], none⟩ <;> rfl

/-! ## examples -/

/-- a dataset with two longitudes, found by two criteria, and a temperature -/
def srDs : List DObj := [mkObj "longitude" [], mkObj "xx" [("standard_name", .str "longitude_at_u_location".toList), ("comment", .str "any".toList)], mkObj "temp" []]
def srSpec : CfSpec := ⟨["longitude".toList], [("standard_name".toList, .list ["longitude".toList])], "snu".toList⟩

example : (srDs.map DObj.name).Nodup := by decide +kernel
example : (searchNameAll sgTUV .any srDs "lon".toList srSpec).map (fun l => l.map fun x => x.1.name) = .ok [some "xx".toList, some "longitude".toList] := by decide +kernel
example : (searchNameAll sgTUV .any srDs.reverse "lon".toList srSpec).map (fun l => l.map fun x => x.1.name) = .ok [some "xx".toList, some "longitude".toList] := by
  decide +kernel
/-- the temperature does not match -/
example : matchName sgTUV [("lon".toList, srSpec)] .any (mkObj "temp" []) "lon".toList = .ok false := by decide +kernel
/-- the comment is not looked at -/
example : SameForMatch (mkObj "xx" [("standard_name", .str "longitude_at_u_location".toList), ("comment", .str "any".toList)])
    (mkObj "xx" [("standard_name", .str "longitude_at_u_location".toList), ("history", .other true)]) := by
  unfold SameForMatch; decide +kernel

end Xoa
