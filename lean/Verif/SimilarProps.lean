import Verif.Similar
import Verif.CoordGetProps
import Verif.MiscFilterProps

/-! # C113: registration of the accessors; C114: similar arrays; C115: search for a similar array -/

namespace Xoa

/-! ## C113 -/

/-- what the user asks for an accessor: nothing, or the name under which it must be available -/
def RegArg.wanted (a : RegArg) (dflt : Str) : Option Str :=
  match a with
  | .bool true => some dflt
  | .bool false => none
  | .name [] => none
  | .name s => some s

/-- **C113.** With booleans for `xoa` and `cf` (any value for `sigma`, of another name than the two
others), the accessors of the arrays and datasets are exactly the requested ones under their names,
in addition to those already there. -/
theorem C113_register_partial (xoa cf : Bool) (sigma : RegArg) (r : Registry) (k : Str)
    (hs : sigma.wanted "decode_sigma".toList ≠ some "xoa".toList ∧ sigma.wanted "decode_sigma".toList ≠ some "cfd".toList) :
    lookupS k (registerAccessors (.bool xoa) (.bool cf) sigma r).arrays =
      (if k = "xoa".toList ∧ xoa = true then some .xoaArray
       else if k = "cfd".toList ∧ cf = true then some .cfArray else lookupS k r.arrays) ∧
    lookupS k (registerAccessors (.bool xoa) (.bool cf) sigma r).datasets =
      (if k = "xoa".toList ∧ xoa = true then some .xoaDataset
       else if k = "cfd".toList ∧ cf = true then some .cfDataset
       else if some k = sigma.wanted "decode_sigma".toList then some .sigma else lookupS k r.datasets) := by
  have hsig : ∀ r : Registry, (if sigma.truthy then registerSigma (sigma.nameOr "decode_sigma".toList) r else r) =
      (sigma.wanted "decode_sigma".toList).elim r (fun s => registerSigma s r) := by
    intro r
    rcases sigma with b | s
    · cases b <;> rfl
    · cases s <;> rfl
  unfold registerAccessors
  simp only [hsig]
  have hne : "xoa".toList ≠ "cfd".toList := by decide
  have hb1 : ∀ b : Bool, (RegArg.bool b).truthy = b := fun _ => rfl
  have hb2 : ∀ (b : Bool) (d : Str), (RegArg.bool b).nameOr d = d := fun _ _ => rfl
  simp only [hb1, hb2]
  generalize "xoa".toList = X at *
  generalize "cfd".toList = C at *
  generalize sigma.wanted "decode_sigma".toList = w at *
  clear hsig hb1 hb2
  have hk : ¬ (k = X ∧ k = C) := fun h => hne (h.1 ▸ h.2)
  cases w with
  | none =>
    cases xoa <;> cases cf <;>
      simp only [registerXoa, registerCf, lookupS_setS, Option.elim, if_true, if_false, Bool.false_eq_true,
        and_false, and_true, reduceCtorEq]
    all_goals first | exact ⟨trivial, trivial⟩ | (constructor <;> split_ifs <;> first | rfl | (exfalso; tauto))
  | some s =>
    have s1 : ¬ (k = X ∧ k = s) := fun h => hs.1 (by rw [← h.1, h.2])
    have s2 : ¬ (k = C ∧ k = s) := fun h => hs.2 (by rw [← h.1, h.2])
    clear hs
    cases xoa <;> cases cf <;>
      simp only [registerXoa, registerCf, registerSigma, lookupS_setS, Option.elim, if_true, if_false, Bool.false_eq_true,
        and_false, and_true, Option.some.injEq]
    all_goals first | exact ⟨trivial, trivial⟩ | (constructor <;> first | trivial | (split_ifs <;> first | rfl | (exfalso; tauto)))

/-- **C113 is violated**: a name given for the main accessor is ignored, it is registered as `xoa`
and nothing is registered under the given name -/
theorem C113_xoa_name_violated (s : Str) (hs : s ≠ []) (hn : s ≠ "xoa".toList) (r : Registry)
    (hr : lookupS s r.arrays = none) :
    lookupS s (registerAccessors (.name s) (.bool false) (.bool false) r).arrays = none ∧
    lookupS "xoa".toList (registerAccessors (.name s) (.bool false) (.bool false) r).arrays = some .xoaArray := by
  have ht : (!List.isEmpty s) = true := by cases s with | nil => exact absurd rfl hs | cons => rfl
  unfold registerAccessors
  simp only [ht, if_true, RegArg.nameOr, RegArg.truthy, Bool.false_eq_true, if_false, registerXoa, lookupS_setS, hn, hr]
  exact ⟨trivial, trivial⟩

/-- **C113 is violated**: when a name is given for the CF accessors, the main accessor (asked for by
default) is registered under this name too, is replaced at once by the CF one, and is not available
under any name -/
theorem C113_cf_name_violated (s : Str) (hs : s ≠ []) :
    registerAccessors (.bool true) (.name s) (.bool false) {} = ⟨[(s, .cfArray)], [(s, .cfDataset)]⟩ := by
  have ht : (!List.isEmpty s) = true := by cases s with | nil => exact absurd rfl hs | cons => rfl
  unfold registerAccessors
  simp only [ht, if_true, RegArg.nameOr, RegArg.truthy, Bool.false_eq_true, if_false, registerXoa, registerCf, setS]

/-- the default call -/
example : registerAccessors (.bool true) (.bool false) (.bool false) {} = ⟨[("xoa".toList, .xoaArray)], [("xoa".toList, .xoaDataset)]⟩ := by
  decide
/-- a name for the sigma accessor is taken into account -/
example : (registerAccessors (.bool true) (.bool true) (.name "sg".toList) {}).datasets =
    [("xoa".toList, .xoaDataset), ("cfd".toList, .cfDataset), ("sg".toList, .sigma)] := by
  decide

/-! ## C114 -/

/-- both arrays have the attribute as a text, and the texts differ by the case only -/
def SameText (k : Str) (a b : SimArr) : Prop :=
  ∃ s t, a.obj.attr k = some (.str s) ∧ b.obj.attr k = some (.str t) ∧ lower s = lower t

/-- the two arrays have the same CF name -/
def SameCf (sg : SG) (two : CfTwo) (a b : SimArr) : Prop :=
  ∃ c d n, specsMatch sg two a.isCoord .any a.obj = .ok (some (c, n)) ∧
    specsMatch sg two b.isCoord .any b.obj = .ok (some (d, n))

/-- the two arrays have the same name -/
def SameNm (a b : SimArr) : Prop := ∃ n, n ≠ [] ∧ a.obj.name = some n ∧ b.obj.name = some n

/-- the documented meaning of "similar" -/
def SimilarSpec (sg : SG) (two : CfTwo) (a b : SimArr) : Prop :=
  SameText "standard_name".toList a b ∨ SameCf sg two a b ∨ SameNm a b ∨ SameText "long_name".toList a b

theorem sameAttr_iff {a b : SimArr} {k : Str} {r : Bool} (h : sameAttr a b k = .ok r) :
    r = true ↔ SameText k a b := by
  unfold sameAttr at h
  unfold SameText
  rcases ha : a.obj.attr k with _ | ⟨s⟩ | ⟨x⟩ <;> rcases hb : b.obj.attr k with _ | ⟨t⟩ | ⟨y⟩ <;>
    simp only [ha, hb] at h <;> first | (cases h; simp) | cases h

theorem specsMatch_ne_nil {sg : SG} {two : CfTwo} {i : Bool} {da : DObj} {c : Bool} {n : Str}
    (h : specsMatch sg two i .any da = .ok (some (c, n))) : n ≠ [] := by
  unfold specsMatch at h
  have key : ∀ (e : Except MErr (Option Str)), (e.map (fun r => r.bind fun n => if n = [] then none else some (i, n))) =
      .ok (some (c, n)) → n ≠ [] := by
    intro e he
    cases e with
    | error e => cases he
    | ok r =>
      simp only [Except.map, Except.ok.injEq] at he
      cases r with
      | none => cases he
      | some m =>
        simp only [Option.bind_some] at he
        split at he
        · cases he
        · next hm => simp only [Option.some.injEq, Prod.mk.injEq] at he; rw [← he.2]; exact hm
  cases h1 : matchAny sg (two.cat (!i)) .any da with
  | error e => rw [h1] at h; cases h
  | ok r =>
    rw [h1] at h
    simp only [Except.bind] at h
    cases r with
    | none => exact key _ h
    | some m =>
      simp only at h
      split at h
      · exact key _ h
      · next hm => simp only [Except.ok.injEq, Option.some.injEq, Prod.mk.injEq] at h; rw [← h.2]; exact hm

theorem sameCfName_iff {sg : SG} {two : CfTwo} {r : Registry} {a b : SimArr} {x : Bool}
    (h : sameCfName sg two r a b = .ok x) : x = true ↔ SameCf sg two a b := by
  unfold sameCfName cfAccName at h
  unfold SameCf
  cases hr : lookupS "cf".toList r.arrays with
  | none => rw [hr] at h; cases h
  | some cls =>
    simp only [hr] at h
    cases ha : specsMatch sg two a.isCoord .any a.obj with
    | error e => rw [ha] at h; cases e <;> cases h
    | ok m =>
      rw [ha] at h
      simp only [Except.bind] at h
      cases m with
      | none => simp at h; subst h; simp
      | some m =>
        obtain ⟨c, n⟩ := m
        have hn := specsMatch_ne_nil ha
        simp only [Option.map_some, reduceCtorEq, Option.some.injEq, hn, or_self, if_false] at h
        cases hb : specsMatch sg two b.isCoord .any b.obj with
        | error e => rw [hb] at h; cases e <;> cases h
        | ok m' =>
          rw [hb] at h
          simp only [Except.map, Except.ok.injEq] at h
          subst h
          cases m' with
          | none => simp
          | some m' => obtain ⟨d, n'⟩ := m'; simp

theorem sameName_iff (a b : SimArr) : sameName a b = true ↔ SameNm a b := by
  unfold sameName SameNm
  rw [decide_eq_true_iff]
  constructor
  · rintro ⟨h1, h2, h3⟩
    obtain ⟨n, hn⟩ := Option.ne_none_iff_exists'.1 h1
    exact ⟨n, fun h => h2 (by rw [hn, h]), hn, by rw [← h3, hn]⟩
  · rintro ⟨n, hn, ha, hb⟩
    rw [ha, hb]
    simpa using hn

/-- **C114.** Whenever it gives an answer, `are_similar` tells whether the two arrays share their standard
name (ignoring the case), their CF name, their name or their long name. -/
theorem C114_are_similar_partial (sg : SG) (two : CfTwo) (r : Registry) (a b : SimArr) (x : Bool)
    (h : areSimilar sg two r a b = .ok x) : x = true ↔ SimilarSpec sg two a b := by
  unfold areSimilar at h
  unfold SimilarSpec
  cases h1 : sameAttr a b "standard_name".toList with
  | error e => rw [h1] at h; cases h
  | ok s =>
    rw [h1] at h
    simp only [Except.bind] at h
    have e1 := sameAttr_iff h1
    cases s with
    | true =>
      simp only [if_true, Except.ok.injEq] at h; subst h
      exact ⟨fun _ => Or.inl (e1.1 rfl), fun _ => rfl⟩
    | false =>
      simp only [Bool.false_eq_true, if_false] at h
      have n1 : ¬ SameText "standard_name".toList a b := fun hh => by simpa using e1.2 hh
      cases h2 : sameCfName sg two r a b with
      | error e => rw [h2] at h; cases h
      | ok c =>
        rw [h2] at h
        simp only at h
        have e2 := sameCfName_iff h2
        cases c with
        | true =>
          simp only [if_true, Except.ok.injEq] at h; subst h
          exact ⟨fun _ => Or.inr (Or.inl (e2.1 rfl)), fun _ => rfl⟩
        | false =>
          simp only [Bool.false_eq_true, if_false] at h
          have n2 : ¬ SameCf sg two a b := fun hh => by simpa using e2.2 hh
          by_cases h3 : sameName a b = true
          · rw [if_pos h3] at h
            simp only [Except.ok.injEq] at h; subst h
            exact ⟨fun _ => Or.inr (Or.inr (Or.inl ((sameName_iff a b).1 h3))), fun _ => rfl⟩
          · rw [if_neg h3] at h
            have n3 : ¬ SameNm a b := fun hh => h3 ((sameName_iff a b).2 hh)
            rw [sameAttr_iff h]
            constructor
            · intro hh; exact Or.inr (Or.inr (Or.inr hh))
            · rintro (hh | hh | hh | hh)
              exacts [absurd hh n1, absurd hh n2, absurd hh n3, hh]

theorem SimilarSpec.symm {sg : SG} {two : CfTwo} {a b : SimArr} (h : SimilarSpec sg two a b) :
    SimilarSpec sg two b a := by
  rcases h with ⟨s, t, h1, h2, h3⟩ | ⟨c, d, n, h1, h2⟩ | ⟨n, h1, h2, h3⟩ | ⟨s, t, h1, h2, h3⟩
  · exact Or.inl ⟨t, s, h2, h1, h3.symm⟩
  · exact Or.inr (Or.inl ⟨d, c, n, h2, h1⟩)
  · exact Or.inr (Or.inr (Or.inl ⟨n, h1, h3, h2⟩))
  · exact Or.inr (Or.inr (Or.inr ⟨t, s, h2, h1, h3.symm⟩))

/-- **C114**: the answer does not depend on the order of the two arrays -/
theorem C114_symmetric_partial (sg : SG) (two : CfTwo) (r : Registry) (a b : SimArr) (x y : Bool)
    (h1 : areSimilar sg two r a b = .ok x) (h2 : areSimilar sg two r b a = .ok y) : x = y := by
  have e1 := C114_are_similar_partial sg two r a b x h1
  have e2 := C114_are_similar_partial sg two r b a y h2
  cases x <;> cases y <;> simp_all
  · exact e1 e2.symm
  · exact e2 e1.symm

/-- `are_similar` does answer when the accessor `cf` is registered, the attributes are texts and the
arrays can be matched -/
theorem C114_answers_partial (sg : SG) (two : CfTwo) (r : Registry) (a b : SimArr)
    (hr : lookupS "cf".toList r.arrays ≠ none)
    (ht : ∀ k, k = "standard_name".toList ∨ k = "long_name".toList → ∀ x : SimArr, x = a ∨ x = b → ∀ v,
      x.obj.attr k = some v → ∃ s, v = .str s)
    (hm : ∀ x : SimArr, x = a ∨ x = b → ∃ n, specsMatch sg two x.isCoord .any x.obj = .ok n) :
    ∃ x, areSimilar sg two r a b = .ok x := by
  have hs : ∀ k, k = "standard_name".toList ∨ k = "long_name".toList → ∃ x, sameAttr a b k = .ok x := by
    intro k hk
    unfold sameAttr
    cases ha : a.obj.attr k with
    | none => cases hb : b.obj.attr k with
      | none => exact ⟨_, rfl⟩
      | some v => exact ⟨_, rfl⟩
    | some v =>
      obtain ⟨s, rfl⟩ := ht k hk a (Or.inl rfl) v ha
      cases hb : b.obj.attr k with
      | none => exact ⟨_, rfl⟩
      | some w => obtain ⟨t, rfl⟩ := ht k hk b (Or.inr rfl) w hb; exact ⟨_, rfl⟩
  obtain ⟨x1, e1⟩ := hs _ (Or.inl rfl)
  obtain ⟨x2, e2⟩ := hs _ (Or.inr rfl)
  have hc : ∀ x : SimArr, x = a ∨ x = b → ∃ n, cfAccName sg two r x = .ok n := by
    intro x hx
    obtain ⟨n, hn⟩ := hm x hx
    unfold cfAccName
    cases hl : lookupS "cf".toList r.arrays with
    | none => exact absurd hl hr
    | some c => simp only [hn]; exact ⟨_, rfl⟩
  obtain ⟨n, hn⟩ := hc a (Or.inl rfl)
  obtain ⟨m, hm'⟩ := hc b (Or.inr rfl)
  have e3 : ∃ c, sameCfName sg two r a b = .ok c := by
    unfold sameCfName
    rw [hn, hm']
    simp only [Except.bind, Except.map]
    split <;> exact ⟨_, rfl⟩
  obtain ⟨c, e3⟩ := e3
  unfold areSimilar
  rw [e1, e2, e3]
  simp only [Except.bind]
  split
  · exact ⟨_, rfl⟩
  · split
    · exact ⟨_, rfl⟩
    · split <;> exact ⟨_, rfl⟩

/-- **C114 is violated**: two arrays without a common standard name cannot be compared, whatever their
names, unless an accessor has been registered under the name `cf`, which none of the documented default
registrations does -/
theorem C114_unregistered_violated (sg : SG) (two : CfTwo) (xoa cf sigma : Bool) (a b : SimArr)
    (h : sameAttr a b "standard_name".toList = .ok false) :
    areSimilar sg two (registerAccessors (.bool xoa) (.bool cf) (.bool sigma) {}) a b = .error .attributeError := by
  have hl : lookupS "cf".toList (registerAccessors (.bool xoa) (.bool cf) (.bool sigma) {}).arrays = none := by
    cases xoa <;> cases cf <;> cases sigma <;> decide
  unfold areSimilar sameCfName cfAccName
  rw [h]
  simp only [Except.bind, hl]
  rfl

/-! ### examples -/

def simArr (n : String) (attrs : List (Str × AVal)) (isCoord : Bool) : SimArr := ⟨⟨some n.toList, fun k => lookupS k attrs⟩, isCoord⟩

def regCf : Registry := registerAccessors (.bool true) (.name "cf".toList) (.bool false) {}

/-- same standard name up to the case; same CF name; nothing in common; same long name -/
example : areSimilar sgTUV exTwo {} (simArr "a" [("standard_name".toList, .str "Sea_T".toList)] false)
      (simArr "b" [("standard_name".toList, .str "sea_t".toList)] false) = .ok true ∧
    areSimilar sgTUV exTwo regCf (simArr "temp" [] false) (simArr "sst" [] false) = .ok true ∧
    areSimilar sgTUV exTwo regCf (simArr "temp" [] false) (simArr "sal" [] false) = .ok false ∧
    areSimilar sgTUV exTwo regCf (simArr "x1" [("long_name".toList, .str "X".toList)] false)
      (simArr "x2" [("long_name".toList, .str "x".toList)] false) = .ok true := by
  refine ⟨?_, ?_, ?_, ?_⟩ <;> decide +kernel

/-- two arrays of the same name, default registration -/
example : sameAttr (simArr "sst" [] false) (simArr "sst" [] false) "standard_name".toList = .ok false := by decide +kernel

/-! ## C115 -/

/-- **C115 is violated** for datasets: an exception, whatever they contain -/
theorem C115_dataset_violated (sg : SG) (two : CfTwo) (r : Registry) (vars coords : List SimArr) (da : SimArr)
    (daCoords : List SimArr) :
    searchSimilar sg two r ⟨some vars, coords⟩ da daCoords = .error .attributeError := rfl

/-- **C115 is violated** for arrays: the answer does not depend on the object that must be scanned. Only the
coordinates of the array itself are compared to it. -/
theorem C115_array_violated (sg : SG) (two : CfTwo) (r : Registry) (coords coords' : List SimArr) (da : SimArr)
    (daCoords : List SimArr) :
    searchSimilar sg two r ⟨none, coords⟩ da daCoords = searchSimilar sg two r ⟨none, coords'⟩ da daCoords ∧
    ∀ t, searchSimilar sg two r ⟨none, coords⟩ da daCoords = .ok (some t) →
      t ∈ daCoords ∧ SimilarSpec sg two t da := by
  refine ⟨rfl, ?_⟩
  intro t
  show similarLoop sg two r da daCoords = _ → _
  induction daCoords with
  | nil => intro h; cases h
  | cons c cs ih =>
    intro h
    unfold similarLoop at h
    cases h1 : areSimilar sg two r c da with
    | error e => rw [h1] at h; cases h
    | ok b =>
      rw [h1] at h
      simp only [Except.bind] at h
      cases b with
      | true =>
        simp only [if_true, Except.ok.injEq, Option.some.injEq] at h
        subst h
        exact ⟨List.mem_cons_self, (C114_are_similar_partial sg two r c da true h1).1 rfl⟩
      | false =>
        simp only [Bool.false_eq_true, if_false] at h
        exact ⟨List.mem_cons_of_mem _ (ih h).1, (ih h).2⟩

/-- a scanned array whose coordinate `lon` is the searched one, and is not found -/
example : (searchSimilar sgTUV exTwo regCf ⟨none, [simArr "lon" [] true]⟩ (simArr "lon" [] false) []).map Option.isSome = .ok false := by
  decide +kernel

end Xoa
