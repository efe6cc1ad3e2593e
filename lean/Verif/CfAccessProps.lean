import Verif.CfAccess
import Verif.CoordGetProps
import Verif.CfLoadProps

/-! # C131: specifications by name; C132, C133: searches of several items and in given categories -/

namespace Xoa

/-! ## C131 -/

/-- **C131.** `specs[name]` gives the category of this name; otherwise the data variable of this name if there is one;
otherwise the coordinate; otherwise the section; and it is a `KeyError` exactly when there is none of these. -/
theorem C131_getitem {α : Type} (b : CfBox α) (s : Str) :
    (s = "data_vars".toList → b.getItem s = .ok (.category true)) ∧
    (s = "coords".toList → b.getItem s = .ok (.category false)) ∧
    (s ∉ ["data_vars".toList, "coords".toList] →
      (∀ v, lookupS s b.dataVars = some v → b.getItem s = .ok (.item true v)) ∧
      (lookupS s b.dataVars = none → ∀ v, lookupS s b.coords = some v → b.getItem s = .ok (.item false v)) ∧
      (lookupS s b.dataVars = none → lookupS s b.coords = none → ∀ v, lookupS s b.others = some v → b.getItem s = .ok (.section v)) ∧
      (b.getItem s = .error .keyError ↔ lookupS s b.dataVars = none ∧ lookupS s b.coords = none ∧ lookupS s b.others = none)) := by
  refine ⟨?_, ?_, ?_⟩
  · rintro rfl
    have e : "data_vars".toList = cVars := rfl
    rw [e]; simp [CfBox.getItem, catNames]
  · rintro rfl
    have e : "coords".toList = cCoords := rfl
    rw [e]
    have h : ¬ cCoords = cVars := by decide
    simp [CfBox.getItem, catNames, h]
  · intro hs
    have hs' : s ∉ catNames := hs
    unfold CfBox.getItem
    rw [if_neg hs']
    refine ⟨?_, ?_, ?_, ?_⟩
    · intro v h; rw [h]
    · intro h v h2; rw [h, h2]
    · intro h h2 v h3; rw [h, h2, h3]
    · cases h1 : lookupS s b.dataVars with
      | some v => simp
      | none =>
        cases h2 : lookupS s b.coords with
        | some v => simp
        | none => cases h3 : lookupS s b.others <;> simp

/-- **C131 is violated** for `in`: a variable or coordinate can be got from the specifications, although it
is not "in" them. -/
theorem C131_contains_violated {α : Type} (b : CfBox α) (s : Str) (hs : s ∉ ["data_vars".toList, "coords".toList])
    (hk : catContains b.dataVars s = true ∨ catContains b.coords s = true) :
    (∃ vars v, b.getItem s = .ok (.item vars v)) ∧ b.contains s = false := by
  have h := (C131_getitem b s).2.2 hs
  constructor
  · cases h1 : lookupS s b.dataVars with
    | some v => exact ⟨true, v, h.1 v h1⟩
    | none =>
      cases h2 : lookupS s b.coords with
      | some v => exact ⟨false, v, h.2.1 h1 v h2⟩
      | none => simp [catContains, h1, h2] at hk
  · have : s ∉ catNames := hs
    simp [CfBox.contains, this]

theorem lookupS_ne_none_of_mem {α : Type} {k : Str} {v : α} : ∀ {l : List (Str × α)}, (k, v) ∈ l → lookupS k l ≠ none
  | [], h => by simp at h
  | (k', v') :: l, h => by
    unfold lookupS
    split
    · simp
    · next hne =>
      rcases List.mem_cons.mp h with h | h
      · cases h; exact absurd rfl hne
      · exact lookupS_ne_none_of_mem h

/-- **C131.** In a category, `get_specs` gives the specifications of the names that are in it, and for other names it raises, warns once or is silent as asked. -/
theorem C131_get_specs {α : Type} (cat : List (Str × α)) (name : Str) :
    (catContains cat name = true → ∃ v, (name, v) ∈ cat ∧ ∀ errors, getSpecs cat name errors = .ok (some v, 0)) ∧
    (catContains cat name = false → (∀ v, (name, v) ∉ cat) ∧ getSpecs cat name .raise = .error .xoaError ∧
      getSpecs cat name .warn = .ok (none, 1) ∧ getSpecs cat name .ignore = .ok (none, 0)) := by
  unfold catContains getSpecs
  cases h : lookupS name cat with
  | some v =>
    simp only [Option.isSome_some, reduceCtorEq, IsEmpty.forall_iff, and_true, forall_const]
    exact ⟨v, mem_of_lookupS _ _ _ h, fun _ => rfl⟩
  | none =>
    refine ⟨fun hf => by simp at hf, fun _ => ⟨fun v hv => ?_, rfl, rfl, rfl⟩⟩
    exact absurd h (lookupS_ne_none_of_mem hv)

/-- two variables, one of them having the name of a section, and a coordinate -/
def exBox : CfBox Nat := ⟨[("temp".toList, 1), ("dims".toList, 2)], [("lon".toList, 3), ("temp".toList, 4)], [("dims".toList, 5), ("sglocator".toList, 6)]⟩

example : exBox.getItem "temp".toList = .ok (.item true 1) ∧ exBox.getItem "lon".toList = .ok (.item false 3) ∧
    exBox.getItem "dims".toList = .ok (.item true 2) ∧ exBox.getItem "sglocator".toList = .ok (.section 6) ∧
    exBox.getItem "sal".toList = .error .keyError ∧ exBox.contains "temp".toList = false ∧ exBox.contains "coords".toList = true := by decide +kernel

/-! ## C132 -/

variable (sg : SG) (two : CfTwo) (dsa : DSA) (loc : MLoc)

theorem notIn_eqName (r : Str) : ∀ l : List Str, notIn eqName r l = .ok (decide (r ∉ l))
  | [] => by simp [notIn]
  | x :: l => by
    unfold notIn eqName
    show (if decide (x = r) = true then _ else _) = _
    by_cases h : x = r
    · simp [h]
    · have h' : ¬ r = x := fun e => h e.symm
      rw [if_neg (by simpa using h)]
      have := notIn_eqName r l
      unfold eqName at this
      rw [this]
      simp [h']

theorem newOnes_eqName (found : List Str) : ∀ l : List Str, newOnes eqName found l = .ok (l.filter (fun r => decide (r ∉ found)))
  | [] => rfl
  | r :: l => by
    unfold newOnes
    rw [notIn_eqName, newOnes_eqName found l]
    show Except.ok _ = _
    by_cases h : r ∈ found <;> simp [h]

/-- what a category finds: all the objects that match -/
def AllIn (vars : Bool) (name : Option Str) (res : List (DObj × Str)) : Prop :=
  catSearchAll sg (two.cat vars) loc (dsa.objs vars) name = .ok (some res)

/-- **C132.** When the name is known in the two categories, or without name, the search of all the names gives those of
the first category, followed by those of the second one that are not already there. -/
theorem C132_names_partial (name : Option Str) (rv rc : List (DObj × Str)) (hv : AllIn sg two dsa loc true name rv) (hc : AllIn sg two dsa loc false name rc) :
    specsSearchAll sg two dsa loc name .none eqName (·.2) = .ok (
      let first := (if dsa.dataVars.isSome then rv else rc).map (·.2)
      let second := (if dsa.dataVars.isSome then rc else rv).map (·.2)
      first ++ second.filter (fun n => decide (n ∉ first))) := by
  have key : ∀ a b : Bool, ∀ ra rb : List (DObj × Str), AllIn sg two dsa loc a name ra → AllIn sg two dsa loc b name rb →
      searchAllLoop sg two dsa loc name eqName (·.2) [] [a, b] =
        .ok (ra.map (·.2) ++ (rb.map (·.2)).filter (fun n => decide (n ∉ ra.map (·.2)))) := by
    intro a b ra rb ha hb
    unfold AllIn at ha hb
    simp only [searchAllLoop, ha, hb, Except.bind, addFound, newOnes_eqName, Except.map]
    have e : ∀ l : List Str, l.filter (fun r => decide (r ∉ ([] : List Str))) = l := by intro l; simp
    rw [e, List.nil_append]
  unfold specsSearchAll
  show searchAllLoop sg two dsa loc name eqName (·.2) [] dsa.cats = _
  unfold DSA.cats
  cases dsa.dataVars.isSome
  · exact key false true rc rv hc hv
  · exact key true false rv rc hv hc

/-- **C132 is violated** (names of one category): the search of all the items of a name that is unknown in one of the two
categories fails, whatever is found, as soon as the search in the other category does not fail. -/
theorem C132_unknown_violated {β : Type} (name : Str) (vars : Bool) (hu : lookupS name (two.cat vars) = none)
    (hk : ∃ r, catSearchAll sg (two.cat (!vars)) loc (dsa.objs (!vars)) (some name) = .ok r) (eq : β → β → Except MErr Bool) (get : DObj × Str → β) :
    specsSearchAll sg two dsa loc (some name) .none eq get = .error .typeError := by
  obtain ⟨r, hr⟩ := hk
  have hn : catSearchAll sg (two.cat vars) loc (dsa.objs vars) (some name) = .ok none := by
    unfold catSearchAll
    dsimp only
    rw [hu]
  have key : ∀ l, l = [vars, !vars] ∨ l = [!vars, vars] → searchAllLoop sg two dsa loc (some name) eq get [] l = .error .typeError := by
    rintro l (rfl | rfl)
    · simp only [searchAllLoop, hn, Except.bind, addFound]
    · simp only [searchAllLoop, hr, Except.bind]
      cases r with
      | none => rfl
      | some res =>
        have e : ∀ l : List β, newOnes eq [] l = .ok l := by
          intro l
          induction l with
          | nil => rfl
          | cons x l ih => unfold newOnes; rw [ih]; rfl
        simp only [addFound, e, Except.map, hn]
  unfold specsSearchAll
  show searchAllLoop sg two dsa loc (some name) eq get [] dsa.cats = _
  apply key
  unfold DSA.cats
  cases vars <;> cases dsa.dataVars.isSome <;> simp

/-- **C132 is violated** (objects): the search of all the objects without name fails when both categories find something and
the comparison of the found arrays has more than one value. -/
theorem C132_objects_violated (size : DObj → DObj → Nat) (same : DObj → DObj → Bool) (rv rc : List (DObj × Str)) (hd : dsa.dataVars.isSome = true)
    (hv : AllIn sg two dsa loc true none rv) (hc : AllIn sg two dsa loc false none rc) (h1 : rv ≠ []) (h2 : rc ≠ [])
    (hs : ∀ a ∈ rv, ∀ b ∈ rc, size a.1 b.1 ≠ 1) :
    specsSearchAll sg two dsa loc none .none (eqObj size same) (·.1) = .error .valueError := by
  unfold specsSearchAll CatsArg.used DSA.cats
  rw [if_pos hd]
  unfold AllIn at hv hc
  have e : ∀ l : List DObj, newOnes (eqObj size same) [] l = .ok l := by
    intro l
    induction l with
    | nil => rfl
    | cons x l ih => unfold newOnes; rw [ih]; rfl
  simp only [searchAllLoop, hv, hc, Except.bind, addFound, e, Except.map]
  obtain ⟨a, rv', rfl⟩ := List.exists_cons_of_ne_nil h1
  obtain ⟨b, rc', rfl⟩ := List.exists_cons_of_ne_nil h2
  have : newOnes (eqObj size same) ([] ++ (a :: rv').map (·.1)) ((b :: rc').map (·.1)) = .error .valueError := by
    simp only [List.nil_append, List.map_cons, newOnes, notIn, eqObj]
    rw [if_neg (hs a (by simp) b (by simp))]
    rfl
  rw [this]

/-! ## C133 -/

/-- **C133.** With one category, only this category is searched. -/
theorem C133_one_partial (name : Str) (vars : Bool) (r : Option (DObj × Str)) (h : FoundIn sg two dsa vars loc name r) :
    specsSearchIn sg two dsa loc name (.one vars) = .ok r := by
  unfold specsSearchIn CatsArg.used specsLoop specsLoop
  rw [h.search]
  cases r <;> rfl

/-- **C133.** Without categories, or with an empty list of categories, both are searched, the data variables first for a dataset and the coordinates first for an array. -/
theorem C133_default (name : Str) (cats : CatsArg) (h0 : cats = .none ∨ cats = .list []) (rv rc : Option (DObj × Str)) (hv : FoundIn sg two dsa true loc name rv)
    (hc : FoundIn sg two dsa false loc name rc) :
    specsSearchIn sg two dsa loc name cats = .ok (if dsa.dataVars.isSome then rv.or rc else rc.or rv) := by
  have e : cats.used dsa = dsa.cats := by rcases h0 with rfl | rfl <;> rfl
  unfold specsSearchIn
  rw [e]
  unfold DSA.cats
  split
  · unfold specsLoop
    rw [hv.search]
    cases rv with
    | some x => rfl
    | none =>
      show specsLoop sg two dsa loc name [false] = _
      unfold specsLoop
      rw [hc.search]
      cases rc with
      | some x => rfl
      | none => rfl
  · unfold specsLoop
    rw [hc.search]
    cases rc with
    | some x => rfl
    | none =>
      show specsLoop sg two dsa loc name [true] = _
      unfold specsLoop
      rw [hv.search]
      cases rv with
      | some x => rfl
      | none => rfl

/-- **C133 is violated** for a list of categories: the list is not used, the data variables are searched, and then the coordinates. -/
theorem C133_list_violated (name : Str) (v : Bool) (l : List Bool) (rv rc : Option (DObj × Str)) (hv : FoundIn sg two dsa true loc name rv)
    (hc : FoundIn sg two dsa false loc name rc) : specsSearchIn sg two dsa loc name (.list (v :: l)) = .ok (rv.or rc) := by
  unfold specsSearchIn CatsArg.used
  simp only [specsLoop, hv.search, hc.search, Except.bind]
  cases rv with
  | some x => rfl
  | none => cases rc <;> rfl

/-! ### examples -/

/-- the names that are found by a search -/
def namesFound (r : Except MErr (Option (DObj × Str))) : Except MErr (Option (Option Str × Str)) := r.map (·.map fun x => (x.1.name, x.2))

/-- the hypotheses are met: the name `temp` is unknown in the coordinates, its search in the data variables finds something, and the search in both fails;
without name both categories find something, and the names of both are given -/
example : lookupS "temp".toList exTwo.coords = none ∧
    (catSearchAll sgTUV exTwo.dataVars .any ((exDs ["lev"]).objs true) (some "temp".toList)).map (·.map (·.map (·.2))) = .ok (some ["temp".toList]) ∧
    specsSearchAll sgTUV exTwo (exDs ["lev"]) .any (some "temp".toList) .none eqName (·.2) = .error .typeError ∧
    specsSearchAll sgTUV exTwo (exDs ["lev", "nav_lon"]) .any none .none eqName (·.2) = .ok ["temp".toList, "level".toList, "level".toList] ∧
    (specsSearchAll sgTUV exTwo (exDs ["lev"]) .any none .none (eqObj (fun _ _ => 10) (fun _ _ => true)) (·.1)).map (·.map (·.name)) = .error .valueError := by
  decide +kernel

/-- the coordinates are asked for in a list, and a data variable is given -/
example : namesFound (specsSearchIn sgTUV exTwo (exDs ["lev"]) .any "temp".toList (.list [false])) = .ok (some (some "sst".toList, "temp".toList)) ∧
    namesFound (specsSearchIn sgTUV exTwo (exDs ["lev"]) .any "temp".toList (.one false)) = .ok none := by decide +kernel

end Xoa
