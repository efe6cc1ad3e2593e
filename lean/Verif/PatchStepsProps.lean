import Verif.CfgmPatchProps

/-!
# C238: several patches, one after the other

No new model. `ConfigManager.patch` (xoa/cfgm.py:1012-1050); the results are those of C57.
-/

namespace Xoa

/-! ## Specification -/

/-- the patches given in turn -/
def patchAll {V S : Type} (T : Typing V) (specs : List (Str × CT S)) (c : List (Str × CT V)) (ps : List (List (Str × CT V))) : List (Str × CT V) :=
  ps.foldl (fun c p => patchCfg T specs c p) c

/-- the options of a patch are in sections whose names have no underscore at their ends -/
def CleanPatch {V : Type} (p : List (Str × CT V)) : Prop := ∀ path k, leafAt (path ++ [k]) (.sec p) ≠ none → cleanPath path

/-- no option is in both patches -/
def NoCommon {V : Type} (p q : List (Str × CT V)) : Prop := ∀ r, leafAt r (.sec p) = none ∨ leafAt r (.sec q) = none

/-! ## Proofs -/

theorem patched_at {V S : Type} {T : Typing V} (hT : T.Lawful) (specs : List (Str × CT S)) (c p : List (Str × CT V)) (hcomp : Compatible c p) (hp : CleanPatch p) (r : List Str) (v : V)
    (hv : leafAt r (.sec p) = some v) : leafAt r (.sec (patchCfg T specs c p)) = some (coerced T (leafAt r (.sec c)) v) := by
  rcases List.eq_nil_or_concat r with e | ⟨path, k, e⟩
  · subst e; simp [leafAt, getT] at hv
  · rw [List.concat_eq_append] at e
    subst e
    exact C57_patched hT specs c p hcomp path k (hp path k (by rw [hv]; simp)) v hv

theorem compatible_after {V S : Type} {T : Typing V} (hT : T.Lawful) (specs : List (Str × CT S)) (c p q : List (Str × CT V)) (h1 : Compatible c p) (h2 : Compatible c q) (h3 : Compatible p q) :
    Compatible (patchCfg T specs c p) q := by
  obtain ⟨p', hi, -⟩ := patch_inv hT specs c p h1
  intro r b b' hb hb'
  rcases hi.kc r b hb with h | h
  · exact h2 r b b' h hb'
  · exact h3 r b b' h hb'

/-! ## The property -/

/-- **C238, two patches.** The last patch that has an option gives it its value, converted to the type that the option has then. -/
theorem C238_two {V S : Type} {T : Typing V} (hT : T.Lawful) (specs : List (Str × CT S)) (c p q : List (Str × CT V)) (h1 : Compatible c p) (h2 : Compatible c q) (h3 : Compatible p q)
    (hp : CleanPatch p) (hq : CleanPatch q) (r : List Str) :
    leafAt r (.sec (patchCfg T specs (patchCfg T specs c p) q)) =
      match leafAt r (.sec q), leafAt r (.sec p) with
      | some w, some v => some (coerced T (some (coerced T (leafAt r (.sec c)) v)) w)
      | some w, none => some (coerced T (leafAt r (.sec c)) w)
      | none, some v => some (coerced T (leafAt r (.sec c)) v)
      | none, none => leafAt r (.sec c) := by
  have h4 := compatible_after hT specs c p q h1 h2 h3
  cases hw : leafAt r (.sec q) with
  | some w =>
    rw [patched_at hT specs _ q h4 hq r w hw]
    cases hv : leafAt r (.sec p) with
    | some v => rw [patched_at hT specs c p h1 hp r v hv]
    | none => rw [C57_others hT specs c p h1 r hv]
  | none =>
    rw [C57_others hT specs _ q h4 r hw]
    cases hv : leafAt r (.sec p) with
    | some v => rw [patched_at hT specs c p h1 hp r v hv]
    | none => rw [C57_others hT specs c p h1 r hv]

/-- **C238, the first patch is forgotten.** An option of the configuration that the second patch has gets the value that the second patch alone gives, if the value of the first one, when it has one, can be converted to the type of the
option. -/
theorem C238_forgotten {V S : Type} {T : Typing V} (hT : T.Lawful) (specs : List (Str × CT S)) (c p q : List (Str × CT V)) (h1 : Compatible c p) (h2 : Compatible c q) (h3 : Compatible p q)
    (hp : CleanPatch p) (hq : CleanPatch q) (r : List Str) (u w : V) (hu : leafAt r (.sec c) = some u) (hw : leafAt r (.sec q) = some w)
    (hv : ∀ v, leafAt r (.sec p) = some v → T.cast (T.ty u) v ≠ none) :
    leafAt r (.sec (patchCfg T specs (patchCfg T specs c p) q)) = leafAt r (.sec (patchCfg T specs c q)) := by
  rw [C238_two hT specs c p q h1 h2 h3 hp hq r, patched_at hT specs c q h2 hq r w hw, hw, hu]
  cases hv' : leafAt r (.sec p) with
  | none => rfl
  | some v =>
    obtain ⟨x, hx⟩ := Option.ne_none_iff_exists'.1 (hv v hv')
    simp only [coerced, hx, Option.getD_some, hT.cast_ty _ _ _ hx]

/-- **C238, any number of patches.** Patches without common option, given one after the other, set each its options to the values that it gives when it is alone, and the other options are unchanged. -/
theorem C238_many {V S : Type} {T : Typing V} (hT : T.Lawful) (specs : List (Str × CT S)) (ps : List (List (Str × CT V))) : ∀ (c : List (Str × CT V)),
    (∀ p ∈ ps, Compatible c p) → (ps.Pairwise fun p q => Compatible p q ∧ NoCommon p q) → (∀ p ∈ ps, CleanPatch p) → ∀ r,
    (∀ p ∈ ps, ∀ v, leafAt r (.sec p) = some v → leafAt r (.sec (patchAll T specs c ps)) = leafAt r (.sec (patchCfg T specs c p))) ∧
    ((∀ p ∈ ps, leafAt r (.sec p) = none) → leafAt r (.sec (patchAll T specs c ps)) = leafAt r (.sec c)) := by
  induction ps with
  | nil => intro c _ _ _ r; exact ⟨fun _ h => absurd h List.not_mem_nil, fun _ => rfl⟩
  | cons a ps ih =>
    intro c hc hpw hcl r
    rw [List.pairwise_cons] at hpw
    have hca := hc a List.mem_cons_self
    have hc' : ∀ p ∈ ps, Compatible (patchCfg T specs c a) p := fun p hp => compatible_after hT specs c a p hca (hc p (List.mem_cons_of_mem _ hp)) (hpw.1 p hp).1
    obtain ⟨i1, i2⟩ := ih (patchCfg T specs c a) hc' hpw.2 (fun p hp => hcl p (List.mem_cons_of_mem _ hp)) r
    have e : patchAll T specs c (a :: ps) = patchAll T specs (patchCfg T specs c a) ps := rfl
    rw [e]
    constructor
    · intro p hp v hv
      rcases List.mem_cons.1 hp with rfl | hp
      · apply i2
        intro q hq
        rcases (hpw.1 q hq).2 r with h | h
        · rw [hv] at h; cases h
        · exact h
      · have hn : leafAt r (.sec a) = none := by
          rcases (hpw.1 p hp).2 r with h | h
          · exact h
          · rw [hv] at h; cases h
        rw [i1 p hp v hv, patched_at hT specs _ p (hc' p hp) (hcl p (List.mem_cons_of_mem _ hp)) r v hv,
          patched_at hT specs c p (hc p (List.mem_cons_of_mem _ hp)) (hcl p (List.mem_cons_of_mem _ hp)) r v hv, C57_others hT specs c a hca r hn]
    · intro h
      rw [i2 fun p hp => h p (List.mem_cons_of_mem _ hp), C57_others hT specs c a hca r (h a List.mem_cons_self)]

/-- **C238, order.** The order of patches without common option does not matter. -/
theorem C238_order {V S : Type} {T : Typing V} (hT : T.Lawful) (specs : List (Str × CT S)) (ps qs : List (List (Str × CT V))) (c : List (Str × CT V)) (hperm : ps.Perm qs)
    (hc : ∀ p ∈ ps, Compatible c p) (hpw : ps.Pairwise fun p q => Compatible p q ∧ NoCommon p q) (hcl : ∀ p ∈ ps, CleanPatch p) (r : List Str) :
    leafAt r (.sec (patchAll T specs c ps)) = leafAt r (.sec (patchAll T specs c qs)) := by
  have hpw' : qs.Pairwise fun p q => Compatible p q ∧ NoCommon p q :=
    hperm.pairwise hpw fun {p q} h => ⟨fun r b b' x y => (h.1 r b' b y x).symm, fun r => (h.2 r).symm⟩
  obtain ⟨a1, a2⟩ := C238_many hT specs ps c hc hpw hcl r
  obtain ⟨b1, b2⟩ := C238_many hT specs qs c (fun p hp => hc p (hperm.mem_iff.2 hp)) hpw' (fun p hp => hcl p (hperm.mem_iff.2 hp)) r
  by_cases h : ∀ p ∈ ps, leafAt r (.sec p) = none
  · rw [a2 h, b2 fun p hp => h p (hperm.mem_iff.2 hp)]
  · push Not at h
    obtain ⟨p, hp, hv⟩ := h
    obtain ⟨v, hv⟩ := Option.ne_none_iff_exists'.1 hv
    rw [a1 p hp v hv, b1 p (hperm.mem_iff.1 hp) v hv]

/-- two patches of the options of the configuration of C57 without common option -/
def exP1 : List (Str × CT PyVal) := [("s".toList, .sec [("x".toList, .val (.bool false))])]
def exP2 : List (Str × CT PyVal) := [("a".toList, .val (.str "2".toList))]

/-- the orders of these patches; the hypotheses are met below -/
example : leafAt ["a".toList] (.sec (patchAll pyTyping ([] : List (Str × CT Unit)) exC [exP1, exP2])) = some (.str "2".toList) ∧
    leafAt ["s".toList, "x".toList] (.sec (patchAll pyTyping ([] : List (Str × CT Unit)) exC [exP1, exP2])) = some (.bool false) ∧
    leafAt ["a".toList] (.sec (patchAll pyTyping ([] : List (Str × CT Unit)) exC [exP2, exP1])) = some (.str "2".toList) := by
  decide +kernel

/-- the only option of a patch with one option -/
theorem leaf_one {V : Type} (k : Str) (v : V) (r : List Str) (h : leafAt r (.sec [(k, .val v)]) ≠ none) : r = [k] := by
  match r with
  | [] => exact absurd rfl h
  | a :: l =>
    by_cases e : a = k
    · subst e
      cases l with
      | nil => rfl
      | cons x l => exact absurd (by simp [leafAt, getT, lookupS]) h
    · exact absurd (by simp [leafAt, getT, lookupS, e]) h

/-- in a configuration without section, all that is found under a name is an option -/
theorem kind_flat {V : Type} (l : List (Str × V)) (r : List Str) (b : Bool) (h : kindAt r (.sec (l.map fun x => (x.1, CT.val x.2))) = some b) : b = decide (r = []) := by
  match r with
  | [] => exact (Option.some.inj h).symm
  | a :: r =>
    induction l with
    | nil => simp [kindAt, getT, lookupS] at h
    | cons x l ih =>
      by_cases e : a = x.1
      · cases r with
        | nil => simpa [kindAt, getT, lookupS, e, eq_comm] using h
        | cons y r => simp [kindAt, getT, lookupS, e] at h
      · apply ih
        simpa [kindAt, getT, lookupS, e] using h

theorem compatible_flat {V : Type} (l m : List (Str × V)) : Compatible (l.map fun x => (x.1, CT.val x.2)) (m.map fun x => (x.1, CT.val x.2)) := by
  intro r b b' h h'
  rw [kind_flat l r b h, kind_flat m r b' h']

/-- the hypotheses of `C238_order`, for two patches of one option each -/
example (r : List Str) :
    let c : List (Str × CT PyVal) := [("a".toList, .val (.str "1".toList)), ("b".toList, .val (.bool true))]
    let p : List (Str × CT PyVal) := [("a".toList, .val (.str "2".toList))]
    let q : List (Str × CT PyVal) := [("b".toList, .val (.bool false))]
    leafAt r (.sec (patchAll pyTyping ([] : List (Str × CT Unit)) c [p, q])) = leafAt r (.sec (patchAll pyTyping ([] : List (Str × CT Unit)) c [q, p])) := by
  intro c p q
  have hclean : ∀ (k : Str) (v : PyVal), CleanPatch [(k, CT.val v)] := by
    intro k v path k' h
    have := leaf_one k v _ h
    have : path = [] := by
      cases path with
      | nil => rfl
      | cons x path => simp at this
    subst this; rfl
  have hc (m : List (Str × PyVal)) : Compatible c (m.map fun x => (x.1, CT.val x.2)) := compatible_flat (V := PyVal) [("a".toList, PyVal.str "1".toList), ("b".toList, PyVal.bool true)] m
  refine C238_order pyTyping_lawful _ [p, q] [q, p] c (List.Perm.swap _ _ _) ?_ ?_ ?_ r
  · intro x hx
    simp only [List.mem_cons, List.not_mem_nil, or_false] at hx
    rcases hx with rfl | rfl
    · exact hc [("a".toList, PyVal.str "2".toList)]
    · exact hc [("b".toList, PyVal.bool false)]
  · simp only [List.pairwise_cons, List.mem_cons, List.not_mem_nil, or_false, forall_eq, List.Pairwise.nil, and_true, false_implies, implies_true]
    refine ⟨compatible_flat (V := PyVal) [("a".toList, PyVal.str "2".toList)] [("b".toList, PyVal.bool false)], fun r => ?_⟩
    by_contra h
    rw [not_or] at h
    have h1 := leaf_one _ _ r h.1
    rw [leaf_one _ _ r h.2] at h1
    exact absurd h1 (by decide)
  · intro x hx
    simp only [List.mem_cons, List.not_mem_nil, or_false] at hx
    rcases hx with rfl | rfl <;> exact hclean _ _

/-- the value of the first patch that cannot be converted is not forgotten: `True` is not a list, so the option becomes a boolean, and the second patch, a text, is converted to a boolean -/
example :
    let c : List (Str × CT PyVal) := [("l".toList, .val (.list ["u".toList]))]
    leafAt ["l".toList] (.sec (patchAll pyTyping ([] : List (Str × CT Unit)) c [[("l".toList, .val (.bool true))], [("l".toList, .val (.str []))]])) = some (.bool false) ∧
    leafAt ["l".toList] (.sec (patchCfg pyTyping ([] : List (Str × CT Unit)) c [("l".toList, .val (.str []))])) = some (.list []) := by
  decide +kernel

end Xoa
