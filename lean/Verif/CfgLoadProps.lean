import Verif.CfgLoad
import Verif.ArgParseProps
import Mathlib.Data.List.Infix

/-!
# C161 (`load`), C162 (the patch given to `load` and `patch`), C163 (`arg_patch`)
-/

namespace Xoa
variable {V : Type}

/-! ## Specifications -/

/-- the value of an option given to `load`: the keyword, converted to the type of the value of the patch, else the value
of the patch; it replaces the value of the file, and is converted to its type -/
def givenValue (T : Typing V) (src patch kw : List (Str × CT V)) (r : List Str) : Option V :=
  match (match leafAt r (.sec kw) with
      | some k => some (coerced T (leafAt r (.sec patch)) k)
      | none => leafAt r (.sec patch)) with
  | some p => some (coerced T (leafAt r (.sec src)) p)
  | none => leafAt r (.sec src)

/-- in the specifications and in the trees given, a name is always the name of an option or always the name of a section -/
def AgreeingKinds {S : Type} (specs : List (Str × CT S)) (trees : List (List (Str × CT V))) : Prop :=
  ∃ K : List Str → Bool → Prop, (∀ r b b', K r b → K r b' → b = b') ∧ Within K specs ∧ ∀ t ∈ trees, Within K t

/-! ## before the validation -/

theorem raw_within {S : Type} {T : Typing V} (hT : T.Lawful) (specs : List (Str × CT S)) (src : List (Str × CT V)) (patch : Option (List (Str × CT V)))
    (kw : List (Str × CT V)) (K : List Str → Bool → Prop) (hK : ∀ r b b', K r b → K r b' → b = b') (hs : Within K src) (hp : Within K (patch.getD []))
    (hk : Within K kw) : Within K (loadRaw T specs src patch kw) := by
  unfold loadRaw loadPatch
  by_cases he : kw.isEmpty
  · rw [if_pos he]
    cases patch with
    | none => exact hs
    | some p => exact within_patch hK hT specs hs hp
  · rw [if_neg he]
    exact within_patch hK hT specs hs (within_patch hK hT specs hp hk)

/-- the value of an option after a patch, at a clean path -/
theorem patch_leaf {S : Type} {T : Typing V} (hT : T.Lawful) (specs : List (Str × CT S)) (c p : List (Str × CT V)) (hc : Compatible c p)
    (path : List Str) (key : Str) (hclean : cleanPath path) :
    leafAt (path ++ [key]) (.sec (patchCfg T specs c p)) =
      (match leafAt (path ++ [key]) (.sec p) with
        | some v => some (coerced T (leafAt (path ++ [key]) (.sec c)) v)
        | none => leafAt (path ++ [key]) (.sec c)) := by
  cases h : leafAt (path ++ [key]) (.sec p) with
  | some v => exact C57_patched hT specs c p hc path key hclean v h
  | none => exact C57_others hT specs c p hc _ h

theorem raw_leaf {S : Type} {T : Typing V} (hT : T.Lawful) (specs : List (Str × CT S)) (src : List (Str × CT V)) (patch : Option (List (Str × CT V)))
    (kw : List (Str × CT V)) (hsame : AgreeingKinds specs [src, patch.getD [], kw]) (path : List Str) (key : Str) (hclean : cleanPath path) :
    leafAt (path ++ [key]) (.sec (loadRaw T specs src patch kw)) = givenValue T src (patch.getD []) kw (path ++ [key]) := by
  obtain ⟨K, hK, -, hw⟩ := hsame
  have h1 := hw src (by simp)
  have h2 := hw (patch.getD []) (by simp)
  have h3 := hw kw (by simp)
  unfold loadRaw loadPatch givenValue
  by_cases he : kw.isEmpty
  · have : kw = [] := by simpa using he
    subst this
    simp only [List.isEmpty_nil, if_true, leafAt_nil_cfg]
    cases patch with
    | none => simp only [Option.getD_none, leafAt_nil_cfg]
    | some p => simp only [Option.getD_some]; exact patch_leaf hT specs src p (within_compatible hK h1 h2) path key hclean
  · rw [if_neg he]
    dsimp only
    rw [patch_leaf hT specs src _ (within_compatible hK h1 (within_patch hK hT specs h2 h3)) path key hclean,
      patch_leaf hT specs _ kw (within_compatible hK h2 h3) path key hclean]

/-! ## the validation -/

theorem checkOpt_same (specs : List (Str × CT (LoadSpec V))) (st : List (Str × CT V) × Bool) (path : List Str) (key : Str) (s : LoadSpec V)
    (hs : leafAt (path ++ [key]) (.sec specs) = some s) :
    (checkOpt specs st (path, key)).2 = (st.2 && (checked s (leafAt (path ++ [key]) (.sec st.1))).isSome) ∧
    leafAt (path ++ [key]) (.sec (checkOpt specs st (path, key)).1) =
      (checked s (leafAt (path ++ [key]) (.sec st.1))).or (leafAt (path ++ [key]) (.sec st.1)) := by
  unfold checkOpt
  dsimp only
  rw [hs]
  dsimp only
  cases hc : checked s (leafAt (path ++ [key]) (.sec st.1)) with
  | none => simp
  | some w =>
    refine ⟨by simp, ?_⟩
    dsimp only
    rw [Option.some_or, leafAt_eq_some, getT_setAt_same]
    rfl

theorem checkOpt_other (specs : List (Str × CT (LoadSpec V))) (st : List (Str × CT V) × Bool) (pk : List Str × Str) (r : List Str)
    (h1 : ¬ r <+: pk.1) (h2 : ¬ pk.1 ++ [pk.2] <+: r) : leafAt r (.sec (checkOpt specs st pk).1) = leafAt r (.sec st.1) := by
  unfold checkOpt
  split
  · rfl
  · split
    · exact leafAt_congr (getT_setAt_other _ _ _ _ _ h1 h2)
    · rfl

/-- the state after the options of `L` -/
theorem check_fold (specs : List (Str × CT (LoadSpec V))) (L : List (List Str × Str)) (hn : L.Nodup)
    (hall : ∀ x ∈ L, ∃ s, leafAt (x.1 ++ [x.2]) (.sec specs) = some s) (st : List (Str × CT V) × Bool) :
    ((L.foldl (checkOpt specs) st).2 = true ↔ st.2 = true ∧ ∀ x ∈ L, ∀ s, leafAt (x.1 ++ [x.2]) (.sec specs) = some s →
        (checked s (leafAt (x.1 ++ [x.2]) (.sec st.1))).isSome) ∧
    (∀ x ∈ L, ∀ s, leafAt (x.1 ++ [x.2]) (.sec specs) = some s →
        leafAt (x.1 ++ [x.2]) (.sec (L.foldl (checkOpt specs) st).1) =
          (checked s (leafAt (x.1 ++ [x.2]) (.sec st.1))).or (leafAt (x.1 ++ [x.2]) (.sec st.1))) ∧
    (∀ r, (∀ x ∈ L, ¬ r <+: x.1 ∧ ¬ x.1 ++ [x.2] <+: r) → leafAt r (.sec (L.foldl (checkOpt specs) st).1) = leafAt r (.sec st.1)) := by
  induction L generalizing st with
  | nil => exact ⟨by simp, by simp, fun r _ => rfl⟩
  | cons x L ih =>
    obtain ⟨path, key⟩ := x
    obtain ⟨sx, hsx⟩ := hall (path, key) (by simp)
    dsimp only at hsx
    rw [List.nodup_cons] at hn
    obtain ⟨i1, i2, i3⟩ := ih hn.2 (fun y hy => hall y (by simp [hy])) (checkOpt specs st (path, key))
    obtain ⟨c1, c2⟩ := checkOpt_same specs st path key sx hsx
    have apart : ∀ y ∈ L, ∀ s, leafAt (y.1 ++ [y.2]) (.sec specs) = some s →
        leafAt (y.1 ++ [y.2]) (.sec (checkOpt specs st (path, key)).1) = leafAt (y.1 ++ [y.2]) (.sec st.1) := by
      intro y hy s hs
      obtain ⟨g1, g2⟩ := leaves_apart specs y.1 path y.2 key s sx hs hsx (by rintro e; exact hn.1 (by rw [← e]; exact hy))
      exact checkOpt_other specs st (path, key) _ g1 g2
    have xapart : ∀ y ∈ L, ¬ (path ++ [key]) <+: y.1 ∧ ¬ y.1 ++ [y.2] <+: (path ++ [key]) := by
      intro y hy
      obtain ⟨s, hs⟩ := hall y (by simp [hy])
      exact leaves_apart specs path y.1 key y.2 sx s hsx hs (by rintro e; exact hn.1 (by rw [e]; exact hy))
    simp only [List.foldl_cons]
    refine ⟨?_, ?_, ?_⟩
    · rw [i1, c1]
      constructor
      · rintro ⟨h1, h2⟩
        rw [Bool.and_eq_true] at h1
        refine ⟨h1.1, ?_⟩
        intro y hy s hs
        rcases List.mem_cons.1 hy with e | e
        · subst e
          rw [hsx] at hs
          injection hs with hs
          subst hs
          exact h1.2
        · have := h2 y e s hs
          rwa [apart y e s hs] at this
      · rintro ⟨h1, h2⟩
        refine ⟨?_, ?_⟩
        · rw [Bool.and_eq_true]
          exact ⟨h1, h2 (path, key) (by simp) sx hsx⟩
        · intro y hy s hs
          rw [apart y hy s hs]
          exact h2 y (by simp [hy]) s hs
    · intro y hy s hs
      rcases List.mem_cons.1 hy with e | e
      · subst e
        dsimp only at hs ⊢
        rw [i3 _ xapart]
        rw [hsx] at hs
        injection hs with hs
        subst hs
        exact c2
      · rw [i2 y e s hs, apart y e s hs]
    · intro r hr
      rw [i3 r (fun y hy => hr y (by simp [hy]))]
      obtain ⟨g1, g2⟩ := hr (path, key) (by simp)
      exact checkOpt_other specs st (path, key) r g1 g2

theorem specs_leaves_nodup {S : Type} (specs : List (Str × CT S)) (hw : WfTree (.sec specs)) : (leavesL [] specs).Nodup :=
  leavesL_nodup [] specs (hw [] specs rfl) (fun a u hu => hw.sub a u hu)

theorem shape_ok (specs : List (Str × CT (LoadSpec V))) (hw : WfTree (.sec specs)) (c : List (Str × CT V)) (K : List Str → Bool → Prop)
    (hK : ∀ r b b', K r b → K r b' → b = b') (hs : Within K specs) (hc : Within K c) : shapeError specs c = false := by
  unfold shapeError
  rw [List.any_eq_false]
  rintro ⟨path, key⟩ hx
  obtain ⟨s, hl⟩ := (mem_leaves_iff specs hw path key).1 hx
  dsimp only
  rw [Bool.or_eq_true, not_or]
  constructor
  · rw [List.any_eq_true]
    rintro ⟨q, hq, hv⟩
    rw [List.mem_inits] at hq
    obtain ⟨t, rfl⟩ := hq
    have k1 : kindAt q (.sec c) = some false := by
      unfold kindAt
      cases hg : getT q (.sec c) with
      | none => rw [hg] at hv; cases hv
      | some u => cases u with
        | val _ => rfl
        | sec _ => rw [hg] at hv; cases hv
    have k2 : kindAt q (.sec specs) = some true := by
      refine kindAt_prefix q (t ++ [key]) _ (by simp) ?_
      rw [← List.append_assoc, (leafAt_eq_some _ _ _).1 hl]
      simp
    exact absurd (hK _ _ _ (hc _ _ k1) (hs _ _ k2)) (by simp)
  · intro hv
    have k1 : kindAt (path ++ [key]) (.sec c) = some true := by
      unfold kindAt
      cases hg : getT (path ++ [key]) (.sec c) with
      | none => rw [hg] at hv; cases hv
      | some u => cases u with
        | val _ => rw [hg] at hv; cases hv
        | sec _ => rfl
    exact absurd (hK _ _ _ (hc _ _ k1) (hs _ _ (kindAt_leaf _ _ _ hl))) (by simp)

/-- what the validation does -/
theorem validate_spec (specs : List (Str × CT (LoadSpec V))) (hw : WfTree (.sec specs)) (c : List (Str × CT V)) (hsh : shapeError specs c = false) :
    ((∃ out, validateCfg specs c = .ok out) ↔ ∀ path key s, leafAt (path ++ [key]) (.sec specs) = some s →
        (checked s (leafAt (path ++ [key]) (.sec c))).isSome) ∧
    ∀ out, validateCfg specs c = .ok out →
      (∀ path key s, leafAt (path ++ [key]) (.sec specs) = some s →
        leafAt (path ++ [key]) (.sec out) = checked s (leafAt (path ++ [key]) (.sec c))) ∧
      (∀ r, (∀ x ∈ leavesL [] specs, ¬ r <+: x.1 ∧ ¬ x.1 ++ [x.2] <+: r) → leafAt r (.sec out) = leafAt r (.sec c)) := by
  have hall : ∀ x ∈ leavesL [] specs, ∃ s', leafAt (x.1 ++ [x.2]) (.sec specs) = some s' := fun x hx => (mem_leaves_iff specs hw x.1 x.2).1 hx
  obtain ⟨f1, f2, f3⟩ := check_fold specs (leavesL [] specs) (specs_leaves_nodup specs hw) hall (c, true)
  have good : (((leavesL [] specs).foldl (checkOpt specs) (c, true)).2 = true) ↔ ∀ path key s, leafAt (path ++ [key]) (.sec specs) = some s →
        (checked s (leafAt (path ++ [key]) (.sec c))).isSome := by
    rw [f1]
    constructor
    · rintro ⟨-, h⟩ path key s hs
      exact h (path, key) ((mem_leaves_iff specs hw path key).2 ⟨s, hs⟩) s hs
    · intro h
      exact ⟨rfl, fun x _ s hs => h x.1 x.2 s hs⟩
  unfold validateCfg
  rw [hsh]
  simp only [Bool.false_eq_true, if_false]
  constructor
  · rw [← good]
    constructor
    · rintro ⟨out, h⟩
      by_contra hne
      rw [if_neg hne] at h
      cases h
    · intro h
      exact ⟨_, by rw [if_pos h]⟩
  · intro out h
    by_cases hb : ((leavesL [] specs).foldl (checkOpt specs) (c, true)).2 = true
    · rw [if_pos hb] at h
      injection h with h
      subst h
      refine ⟨?_, f3⟩
      intro path key s hs
      rw [f2 (path, key) ((mem_leaves_iff specs hw path key).2 ⟨s, hs⟩) s hs]
      have := good.1 hb path key s hs
      cases hc : checked s (leafAt (path ++ [key]) (.sec c)) with
      | none => rw [hc] at this; cases this
      | some w => rfl
    · rw [if_neg hb] at h
      cases h

/-! ## C161 -/

theorem specs_nonempty {S : Type} (specs : List (Str × CT S)) (path : List Str) (key : Str) (s : S) (h : leafAt (path ++ [key]) (.sec specs) = some s) :
    specs.isEmpty = false := by
  cases specs with
  | nil => rw [leafAt_nil_cfg] at h; cases h
  | cons a l => rfl

/-- what `load` validates, when nothing is filtered -/
theorem load_eq (T : Typing V) (specs : List (Str × CT (LoadSpec V))) (own : Option Filt) (od : Bool) (fs : Str → Option (List (Str × CT V))) (o : LoadOpts V)
    (hf : usedFilter own o.cfgfilter = none) :
    loadFull T specs own od fs o = if o.validate.truthy && !specs.isEmpty then
        validateCfg specs (loadRaw T specs (readCfg fs o.cfgfile) (o.patch.map PatchSrc.tree) o.kw)
      else .ok (loadRaw T specs (readCfg fs o.cfgfile) (o.patch.map PatchSrc.tree) o.kw) := by
  unfold loadFull loadFilter
  rw [hf]

/-- the trees given to `load` -/
def loadTrees (fs : Str → Option (List (Str × CT V))) (o : LoadOpts V) : List (List (Str × CT V)) :=
  [readCfg fs o.cfgfile, (o.patch.map PatchSrc.tree).getD [], o.kw]

/-- the value given for an option to `load` -/
def loadGiven (T : Typing V) (fs : Str → Option (List (Str × CT V))) (o : LoadOpts V) (r : List Str) : Option V :=
  givenValue T (readCfg fs o.cfgfile) ((o.patch.map PatchSrc.tree).getD []) o.kw r

/-- **C161** (values): after `load` with validation, an option of the specifications has the check of the value given for it — by
keywords before the patch, by the patch before the file — and its default when no value is given. -/
theorem C161_value (T : Typing V) (hT : T.Lawful) (specs : List (Str × CT (LoadSpec V))) (hw : WfTree (.sec specs)) (own : Option Filt) (od : Bool)
    (fs : Str → Option (List (Str × CT V))) (o : LoadOpts V) (hf : usedFilter own o.cfgfilter = none) (hv : o.validate.truthy = true)
    (hsame : AgreeingKinds specs (loadTrees fs o)) (out : List (Str × CT V)) (h : loadFull T specs own od fs o = .ok out)
    (path : List Str) (key : Str) (hclean : cleanPath path) (s : LoadSpec V) (hs : leafAt (path ++ [key]) (.sec specs) = some s) :
    leafAt (path ++ [key]) (.sec out) = (match loadGiven T fs o (path ++ [key]) with
      | some v => s.chk v
      | none => s.dflt) := by
  rw [load_eq T specs own od fs o hf, hv, specs_nonempty specs path key s hs] at h
  simp only [Bool.not_false, Bool.and_self, if_true] at h
  have hsame' := hsame
  obtain ⟨K, hK, h1, h2⟩ := hsame
  have hsh := shape_ok specs hw _ K hK h1 (raw_within hT specs (readCfg fs o.cfgfile) (o.patch.map PatchSrc.tree) o.kw K hK (h2 _ (by simp [loadTrees])) (h2 _ (by simp [loadTrees])) (h2 _ (by simp [loadTrees])))
  rw [((validate_spec specs hw _ hsh).2 out h).1 path key s hs, raw_leaf hT specs _ _ _ hsame' path key hclean]
  unfold loadGiven
  cases givenValue T (readCfg fs o.cfgfile) ((o.patch.map PatchSrc.tree).getD []) o.kw (path ++ [key]) <;> rfl

/-- **C161** (errors): `load` with validation succeeds exactly when every option of the specifications has a value that its check
accepts, or no value and a default. -/
theorem C161_accepts_iff (T : Typing V) (hT : T.Lawful) (specs : List (Str × CT (LoadSpec V))) (hw : WfTree (.sec specs)) (own : Option Filt) (od : Bool)
    (fs : Str → Option (List (Str × CT V))) (o : LoadOpts V) (hf : usedFilter own o.cfgfilter = none) (hv : o.validate.truthy = true)
    (hsame : AgreeingKinds specs (loadTrees fs o))
    (hclean : ∀ path key s, leafAt (path ++ [key]) (.sec specs) = some s → cleanPath path) :
    (∃ out, loadFull T specs own od fs o = .ok out) ↔
      ∀ path key s, leafAt (path ++ [key]) (.sec specs) = some s →
        (∃ v, loadGiven T fs o (path ++ [key]) = some v ∧ s.chk v ≠ none) ∨ (loadGiven T fs o (path ++ [key]) = none ∧ s.dflt ≠ none) := by
  rw [load_eq T specs own od fs o hf, hv]
  have hsame' := hsame
  obtain ⟨K, hK, h1, h2⟩ := hsame
  have hsh := shape_ok specs hw _ K hK h1 (raw_within hT specs (readCfg fs o.cfgfile) (o.patch.map PatchSrc.tree) o.kw K hK (h2 _ (by simp [loadTrees])) (h2 _ (by simp [loadTrees])) (h2 _ (by simp [loadTrees])))
  cases he : specs.isEmpty with
  | true =>
    constructor
    · rintro - path key s hs
      rw [specs_nonempty specs path key s hs] at he
      cases he
    · intro _
      exact ⟨_, rfl⟩
  | false =>
    simp only [Bool.not_false, Bool.and_self, if_true]
    rw [(validate_spec specs hw _ hsh).1]
    refine forall_congr' fun path => forall_congr' fun key => forall_congr' fun s => ?_
    constructor
    · intro h hs
      have := h hs
      rw [raw_leaf hT specs _ _ _ hsame' path key (hclean path key s hs)] at this
      unfold loadGiven
      cases hg : givenValue T (readCfg fs o.cfgfile) ((o.patch.map PatchSrc.tree).getD []) o.kw (path ++ [key]) with
      | none => right; rw [hg] at this; exact ⟨rfl, by intro e; simp [checked, e] at this⟩
      | some v => left; rw [hg] at this; exact ⟨v, rfl, by intro e; simp [checked, e] at this⟩
    · intro h hs
      rw [raw_leaf hT specs _ _ _ hsame' path key (hclean path key s hs)]
      have := h hs
      unfold loadGiven at this
      rcases this with ⟨v, e1, e2⟩ | ⟨e1, e2⟩
      · rw [e1]
        simp only [checked]
        exact Option.isSome_iff_ne_none.2 e2
      · rw [e1]
        simp only [checked]
        exact Option.isSome_iff_ne_none.2 e2

/-- **C161** (other options): an option that the specifications do not know has the value given for it. -/
theorem C161_extra (T : Typing V) (hT : T.Lawful) (specs : List (Str × CT (LoadSpec V))) (hw : WfTree (.sec specs)) (own : Option Filt) (od : Bool)
    (fs : Str → Option (List (Str × CT V))) (o : LoadOpts V) (hf : usedFilter own o.cfgfilter = none)
    (hsame : AgreeingKinds specs (loadTrees fs o)) (out : List (Str × CT V)) (h : loadFull T specs own od fs o = .ok out)
    (path : List Str) (key : Str) (hclean : cleanPath path) (hs : getT (path ++ [key]) (.sec specs) = none)
    (hg : loadGiven T fs o (path ++ [key]) ≠ none) :
    leafAt (path ++ [key]) (.sec out) = loadGiven T fs o (path ++ [key]) := by
  have hsame' := hsame
  obtain ⟨K, hK, h1, h2⟩ := hsame
  have hraw := raw_within hT specs _ (o.patch.map PatchSrc.tree) o.kw K hK (h2 (readCfg fs o.cfgfile) (by simp [loadTrees])) (h2 _ (by simp [loadTrees])) (h2 _ (by simp [loadTrees]))
  have hsh := shape_ok specs hw _ K hK h1 hraw
  have hl := raw_leaf hT specs (readCfg fs o.cfgfile) (o.patch.map PatchSrc.tree) o.kw hsame' path key hclean
  rw [load_eq T specs own od fs o hf] at h
  split at h
  · rw [((validate_spec specs hw _ hsh).2 out h).2 (path ++ [key]), hl]
    · rfl
    · rintro ⟨p2, k2⟩ hx
      obtain ⟨s, hs2⟩ := (mem_leaves_iff specs hw p2 k2).1 hx
      constructor
      · rintro ⟨t, ht⟩
        dsimp only at ht
        have : getT (p2 ++ [k2]) (.sec specs) = none := by
          rw [← ht, List.append_assoc, getT_append, hs]; rfl
        rw [(leafAt_eq_some _ _ _).1 hs2] at this
        cases this
      · rintro ⟨t, ht⟩
        dsimp only at ht
        have kk : kindAt (p2 ++ [k2]) (.sec specs) = some false := kindAt_leaf _ _ _ hs2
        cases t with
        | nil =>
          rw [List.append_nil] at ht
          rw [ht, ] at hs2
          rw [(leafAt_eq_some _ _ _).1 hs2] at hs
          cases hs
        | cons a t =>
          have hsome : getT (path ++ [key]) (.sec (loadRaw T specs (readCfg fs o.cfgfile) (o.patch.map PatchSrc.tree) o.kw)) ≠ none := by
            intro e
            apply hg
            unfold loadGiven
            rw [← hl]
            unfold leafAt
            rw [e]
          rw [← ht] at hsome
          have k1 := kindAt_prefix (p2 ++ [k2]) (a :: t) _ (by simp) hsome
          exact absurd (hK _ _ _ (hraw _ _ k1) (h1 _ _ kk)) (by simp)
  · injection h with h
    subst h
    exact hl

/-- **C161** (no validation): with a false `validate`, the options have the values given for them, and no default. -/
theorem C161_not_validated (T : Typing V) (hT : T.Lawful) (specs : List (Str × CT (LoadSpec V))) (own : Option Filt) (od : Bool)
    (fs : Str → Option (List (Str × CT V))) (o : LoadOpts V) (hf : usedFilter own o.cfgfilter = none) (hv : o.validate.truthy = false)
    (hsame : AgreeingKinds specs (loadTrees fs o)) :
    ∃ out, loadFull T specs own od fs o = .ok out ∧ ∀ path key, cleanPath path →
      leafAt (path ++ [key]) (.sec out) = loadGiven T fs o (path ++ [key]) := by
  rw [load_eq T specs own od fs o hf, hv]
  simp only [Bool.false_and, Bool.false_eq_true, if_false]
  exact ⟨_, rfl, fun path key hc => raw_leaf hT specs _ _ _ hsame path key hc⟩

/-- **C161** (shapes): without a patch, a configuration where an option of the specifications is a section, or where one of its
sections is an option, is refused. -/
theorem C161_shape_error (T : Typing V) (specs : List (Str × CT (LoadSpec V))) (hw : WfTree (.sec specs)) (own : Option Filt) (od : Bool)
    (fs : Str → Option (List (Str × CT V))) (o : LoadOpts V) (hf : usedFilter own o.cfgfilter = none) (hv : o.validate.truthy = true)
    (hp : o.patch = none) (hk : o.kw = []) (path : List Str) (key : Str) (s : LoadSpec V) (hs : leafAt (path ++ [key]) (.sec specs) = some s)
    (hbad : kindAt (path ++ [key]) (.sec (readCfg fs o.cfgfile)) = some true ∨ ∃ q, q <+: path ∧ kindAt q (.sec (readCfg fs o.cfgfile)) = some false) :
    loadFull T specs own od fs o = .error .validate := by
  rw [load_eq T specs own od fs o hf, hv, specs_nonempty specs path key s hs, hp, hk]
  simp only [Bool.not_false, Bool.and_self, if_true, Option.map_none]
  have e : loadRaw T specs (readCfg fs o.cfgfile) none [] = readCfg fs o.cfgfile := rfl
  rw [e]
  unfold validateCfg
  rw [if_pos]
  unfold shapeError
  rw [List.any_eq_true]
  refine ⟨(path, key), (mem_leaves_iff specs hw path key).2 ⟨s, hs⟩, ?_⟩
  dsimp only
  rw [Bool.or_eq_true]
  rcases hbad with h | ⟨q, hq, h⟩
  · right
    unfold kindAt at h
    cases hg : getT (path ++ [key]) (.sec (readCfg fs o.cfgfile)) with
    | none => rw [hg] at h; cases h
    | some u => cases u with
      | val _ => rw [hg] at h; cases h
      | sec _ => rfl
  · left
    rw [List.any_eq_true]
    refine ⟨q, (List.mem_inits q path).2 hq, ?_⟩
    unfold kindAt at h
    cases hg : getT q (.sec (readCfg fs o.cfgfile)) with
    | none => rw [hg] at h; cases h
    | some u => cases u with
      | val _ => rfl
      | sec _ => rw [hg] at h; cases h

theorem check_within (specs : List (Str × CT (LoadSpec V))) (K : List Str → Bool → Prop) (hs : Within K specs) (L : List (List Str × Str))
    (st : List (Str × CT V) × Bool) (hc : Within K st.1) : Within K (L.foldl (checkOpt specs) st).1 := by
  induction L generalizing st with
  | nil => exact hc
  | cons x L ih =>
    simp only [List.foldl_cons]
    refine ih _ ?_
    unfold checkOpt
    split
    · exact hc
    · rename_i s hl
      split
      · exact within_setAt hs hc _ _ _ hl _
      · exact hc

theorem validate_within (specs : List (Str × CT (LoadSpec V))) (K : List Str → Bool → Prop) (hs : Within K specs) (c out : List (Str × CT V))
    (hc : Within K c) (h : validateCfg specs c = .ok out) : Within K out := by
  unfold validateCfg at h
  split at h
  · cases h
  · dsimp only at h
    split at h
    · injection h with h
      subst h
      exact check_within specs K hs _ _ hc
    · cases h

/-- **C161** (twice): when the checks accept the values they give and the defaults, as they are, loading the configuration that `load`
gave succeeds and changes none of its options. -/
theorem C161_idempotent (T : Typing V) (hT : T.Lawful) (specs : List (Str × CT (LoadSpec V))) (hw : WfTree (.sec specs)) (own : Option Filt) (od : Bool)
    (fs : Str → Option (List (Str × CT V))) (o : LoadOpts V) (hf : usedFilter own o.cfgfilter = none) (hv : o.validate.truthy = true)
    (hsame : AgreeingKinds specs (loadTrees fs o)) (hne : specs ≠ [])
    (hclean : ∀ path key s, leafAt (path ++ [key]) (.sec specs) = some s → cleanPath path)
    (hchk : ∀ path key s, leafAt (path ++ [key]) (.sec specs) = some s → (∀ v w, s.chk v = some w → s.chk w = some w) ∧ ∀ d, s.dflt = some d → s.chk d = some d)
    (out : List (Str × CT V)) (h : loadFull T specs own od fs o = .ok out) :
    ∃ out', loadFull T specs own od fs { cfgfile := .cfg out, validate := o.validate } = .ok out' ∧
      ∀ path key s, leafAt (path ++ [key]) (.sec specs) = some s → leafAt (path ++ [key]) (.sec out') = leafAt (path ++ [key]) (.sec out) := by
  have hval := fun path key (s : LoadSpec V) (hs : leafAt (path ++ [key]) (.sec specs) = some s) =>
    C161_value T hT specs hw own od fs o hf hv hsame out h path key (hclean path key s hs) s hs
  have hacc := (C161_accepts_iff T hT specs hw own od fs o hf hv hsame hclean).1 ⟨out, h⟩
  have hwo : AgreeingKinds specs [out, [], []] := by
    obtain ⟨K, hK, h1, h2⟩ := hsame
    refine ⟨K, hK, h1, ?_⟩
    have hraw := raw_within hT specs _ (o.patch.map PatchSrc.tree) o.kw K hK (h2 (readCfg fs o.cfgfile) (by simp [loadTrees])) (h2 _ (by simp [loadTrees])) (h2 _ (by simp [loadTrees]))
    have hemp : specs.isEmpty = false := by cases specs with
      | nil => exact absurd rfl hne
      | cons a l => rfl
    rw [load_eq T specs own od fs o hf, hv, hemp] at h
    simp only [Bool.not_false, Bool.and_self, if_true] at h
    intro t ht
    simp only [List.mem_cons, List.not_mem_nil, or_false] at ht
    rcases ht with rfl | rfl | rfl
    · exact validate_within specs K h1 _ _ hraw h
    · exact within_nil h1
    · exact within_nil h1
  have hf' : usedFilter own (.flag false) = none := by
    unfold usedFilter
    split
    · rfl
    · split <;> rfl
  have hout : ∀ path key (s : LoadSpec V), leafAt (path ++ [key]) (.sec specs) = some s → ∃ w, leafAt (path ++ [key]) (.sec out) = some w ∧ s.chk w = some w := by
    intro path key s hs
    rw [hval path key s hs]
    obtain ⟨k1, k2⟩ := hchk path key s hs
    rcases hacc path key s hs with ⟨v, e1, e2⟩ | ⟨e1, e2⟩
    · rw [e1]
      dsimp only
      cases hc : s.chk v with
      | none => exact absurd hc e2
      | some w => exact ⟨w, rfl, k1 v w hc⟩
    · rw [e1]
      dsimp only
      cases hc : s.dflt with
      | none => exact absurd hc e2
      | some w => exact ⟨w, rfl, k2 w hc⟩
  have hg : ∀ path key, loadGiven T fs { cfgfile := .cfg out, validate := o.validate } (path ++ [key]) = leafAt (path ++ [key]) (.sec out) := by
    intro path key
    unfold loadGiven givenValue
    simp only [Option.map_none, Option.getD_none, leafAt_nil_cfg]
    rfl
  obtain ⟨out', h'⟩ := (C161_accepts_iff T hT specs hw own od fs { cfgfile := .cfg out, validate := o.validate } hf' hv hwo hclean).2 (by
    intro path key s hs
    obtain ⟨w, e1, e2⟩ := hout path key s hs
    exact Or.inl ⟨w, by rw [hg, e1], by rw [e2]; simp⟩)
  refine ⟨out', h', ?_⟩
  intro path key s hs
  obtain ⟨w, e1, e2⟩ := hout path key s hs
  rw [C161_value T hT specs hw own od fs { cfgfile := .cfg out, validate := o.validate } hf' hv hwo out' h' path key (hclean path key s hs) s hs, hg, e1]
  exact e2

/-- **C161 is violated** by the modes of validation: documented to report errors, and to fix them, the modes `"report"` and `"fix"` raise
an error when a value is refused, as the mode `"raise"` does. -/
theorem C161_modes_violated (T : Typing V) (hT : T.Lawful) (specs : List (Str × CT (LoadSpec V))) (hw : WfTree (.sec specs)) (own : Option Filt) (od : Bool)
    (fs : Str → Option (List (Str × CT V))) (o : LoadOpts V) (hf : usedFilter own o.cfgfilter = none)
    (hsame : AgreeingKinds specs (loadTrees fs o)) (hclean : ∀ path key s, leafAt (path ++ [key]) (.sec specs) = some s → cleanPath path)
    (path : List Str) (key : Str) (s : LoadSpec V) (hs : leafAt (path ++ [key]) (.sec specs) = some s)
    (v : V) (hv : loadGiven T fs o (path ++ [key]) = some v) (hbad : s.chk v = none) (mode : Str) (hm : mode = "report".toList ∨ mode = "fix".toList ∨ mode = "raise".toList) :
    loadFull T specs own od fs { o with validate := .str mode } = .error .validate := by
  have hm' : (ValidateArg.str mode).truthy = true := by
    rcases hm with rfl | rfl | rfl <;> rfl
  have hno : ¬ ∃ out, loadFull T specs own od fs { o with validate := .str mode } = .ok out := by
    rw [C161_accepts_iff T hT specs hw own od fs { o with validate := .str mode } hf hm' hsame hclean]
    intro h
    rcases h path key s hs with ⟨w, e1, e2⟩ | ⟨e1, e2⟩
    · have e3 : some v = some w := hv.symm.trans e1
      injection e3 with e3
      subst e3
      exact e2 hbad
    · have e3 : some v = none := hv.symm.trans e1
      cases e3
  cases hl : loadFull T specs own od fs { o with validate := .str mode } with
  | ok out => exact absurd ⟨out, hl⟩ hno
  | error e => cases e; rfl

/-- **C161 is violated** by `load(None)`: documented to read `"config.cfg"`, it does not read it: without a patch, it gives the defaults,
whatever `"config.cfg"` contains. -/
theorem C161_none_violated (T : Typing V) (hT : T.Lawful) (specs : List (Str × CT (LoadSpec V))) (hw : WfTree (.sec specs)) (own : Option Filt) (od : Bool)
    (fs : Str → Option (List (Str × CT V))) (out : List (Str × CT V)) (h : loadFull T specs own od fs { cfgfile := .none } = .ok out)
    (path : List Str) (key : Str) (hclean : cleanPath path) (s : LoadSpec V) (hs : leafAt (path ++ [key]) (.sec specs) = some s) :
    leafAt (path ++ [key]) (.sec out) = s.dflt := by
  have hf : usedFilter own (.flag false) = none := by
    unfold usedFilter
    split
    · rfl
    · split <;> rfl
  have hK : AgreeingKinds specs (loadTrees fs { cfgfile := .none }) := by
    refine ⟨fun r b => kindAt r (.sec specs) = some b, ?_, fun r b hb => hb, ?_⟩
    · intro r b b' h1 h2
      rw [h1] at h2
      injection h2
    · intro t ht
      have : t = [] := by
        simp only [loadTrees, readCfg, Option.map_none, Option.getD_none, List.mem_cons, List.not_mem_nil, or_false] at ht
        rcases ht with h | h | h <;> exact h
      subst this
      exact within_nil (fun r b hb => hb)
  rw [C161_value T hT specs hw own od fs { cfgfile := .none } hf rfl hK out h path key hclean s hs]
  unfold loadGiven givenValue
  simp only [Option.map_none, Option.getD_none, leafAt_nil_cfg, readCfg]

/-! ## C162 -/

theorem patchBoth_fst {S : Type} (T : Typing V) (specs : List (Str × CT S)) (c p : List (Str × CT V)) : (patchBoth T specs c p).1 = patchCfg T specs c p := rfl

theorem patchBoth_inv {S : Type} {T : Typing V} (hT : T.Lawful) (specs : List (Str × CT S)) (c p : List (Str × CT V)) (hcomp : Compatible c p) :
    PInv T c p (patchBoth T specs c p).1 (patchBoth T specs c p).2 ∧
      ∀ path k, cleanPath path → leafAt (path ++ [k]) (.sec p) ≠ none → Done T c p (path ++ [k]) (patchBoth T specs c p).1 (patchBoth T specs c p).2 := by
  have h0 : PInv T c p (c, p).1 (c, p).2 :=
    ⟨fun r => rfl, fun r b h => Or.inl h, fun r _ => rfl, fun r v h => Or.inl ⟨h, rfl⟩⟩
  obtain ⟨h1, _, _⟩ := walk_inv hT hcomp (leavesL [] specs) (c, p) h0
  obtain ⟨h2, h3, _⟩ := walk_inv hT hcomp (leavesL [] ((leavesL [] specs).foldl (fun st pk => visit T pk st) (c, p)).2) _ h1
  refine ⟨h2, ?_⟩
  intro path k hclean hleaf
  have hk : kindAt (path ++ [k]) (.sec p) = some false := by
    cases hx : leafAt (path ++ [k]) (.sec p) with
    | none => exact absurd hx hleaf
    | some v => exact kindAt_leaf _ _ _ hx
  rw [← h1.kp] at hk
  cases hx : leafAt (path ++ [k]) (.sec ((leavesL [] specs).foldl (fun st pk => visit T pk st) (c, p)).2) with
  | none => exact absurd hk ((leafAt_none_iff _ _).1 hx)
  | some v =>
    have hm := mem_leaves path k v [] _ hx
    have := h3 _ hm
    simp only [List.nil_append] at this
    rw [hclean] at this
    exact this

/-- the object has the same options, with the same values -/
def SameOptions (a b : List (Str × CT V)) : Prop := ∀ r, leafAt r (.sec a) = leafAt r (.sec b)

/-- **C162** (dictionaries): a dictionary given as a patch, to `patch` or to `load`, is not modified. -/
theorem C162_dict {S : Type} (T : Typing V) (specs : List (Str × CT S)) (c p kw : List (Str × CT V)) :
    patchAfter T specs c (.dict p) = .dict p ∧ loadPatchAfter T specs c kw (.dict p) = .dict p := ⟨rfl, rfl⟩

/-- **C162 is violated** by `patch` with a `ConfigObj`: the value of an option of the patch is replaced, in the patch itself, by its conversion to the
type of the value of the configuration. -/
theorem C162_patch_violated {S : Type} {T : Typing V} (hT : T.Lawful) (specs : List (Str × CT S)) (c p : List (Str × CT V)) (hcomp : Compatible c p)
    (path : List Str) (key : Str) (hclean : cleanPath path) (u v w : V) (hu : leafAt (path ++ [key]) (.sec c) = some u)
    (hv : leafAt (path ++ [key]) (.sec p) = some v) (hw : T.cast (T.ty u) v = some w) :
    leafAt (path ++ [key]) (.sec (patchAfter T specs c (.obj p)).tree) = some w := by
  have := ((patchBoth_inv hT specs c p hcomp).2 path key hclean (by rw [hv]; simp) v hv).1
  rw [hu] at this
  show leafAt (path ++ [key]) (.sec (patchBoth T specs c p).2) = some w
  rw [this]
  simp [coerced, hw]

/-- **C162**, partial: `patch` does not change the patch when the values of the options it shares with the configuration have the
types of those of the configuration. Missing: other types, see `C162_patch_violated`. -/
theorem C162_patch_partial {S : Type} {T : Typing V} (hT : T.Lawful) (specs : List (Str × CT S)) (c p : List (Str × CT V)) (hcomp : Compatible c p)
    (hty : ∀ r u v, leafAt r (.sec c) = some u → leafAt r (.sec p) = some v → T.ty u = T.ty v) :
    SameOptions (patchAfter T specs c (.obj p)).tree p := by
  intro r
  show leafAt r (.sec (patchBoth T specs c p).2) = _
  have hi := (patchBoth_inv hT specs c p hcomp).1
  cases hv : leafAt r (.sec p) with
  | none =>
    rw [leafAt_none_iff, hi.kp, ← leafAt_none_iff]
    exact hv
  | some v =>
    rcases hi.mine r v hv with ⟨e, -⟩ | ⟨e, -⟩
    · exact e
    · rw [e, coerced_same hT _ _ (fun u hu => hty r u v hu hv)]

/-- **C162 is violated** by `load` with a `ConfigObj` and keywords: the keywords are written in the patch. -/
theorem C162_load_violated {S : Type} {T : Typing V} (hT : T.Lawful) (specs : List (Str × CT S)) (src p kw : List (Str × CT V))
    (hsame : AgreeingKinds specs [src, p, kw]) (hp : p ≠ []) (path : List Str) (key : Str) (hclean : cleanPath path) (v : V)
    (hk : leafAt (path ++ [key]) (.sec kw) = some v) (hnew : leafAt (path ++ [key]) (.sec p) = none) (hs : leafAt (path ++ [key]) (.sec src) = none) :
    leafAt (path ++ [key]) (.sec (loadPatchAfter T specs src kw (.obj p)).tree) = some v := by
  obtain ⟨K, hK, -, h2⟩ := hsame
  have hkw : kw.isEmpty = false := by cases kw with
    | nil => rw [leafAt_nil_cfg] at hk; cases hk
    | cons a l => rfl
  have hpe : p.isEmpty = false := by cases p with
    | nil => exact absurd rfl hp
    | cons a l => rfl
  have hpk : Within K (patchCfg T specs p kw) := within_patch hK hT specs (h2 p (by simp)) (h2 kw (by simp))
  have e1 := C57_patched hT specs p kw (within_compatible hK (h2 p (by simp)) (h2 kw (by simp))) path key hclean v hk
  rw [hnew] at e1
  have e2 := ((patchBoth_inv hT specs src (patchCfg T specs p kw) (within_compatible hK (h2 src (by simp)) hpk)).2 path key hclean (by rw [e1]; simp) _ e1).1
  unfold loadPatchAfter
  simp only [hkw, hpe, Bool.false_eq_true, if_false]
  show leafAt (path ++ [key]) (.sec (patchBoth T specs src (patchCfg T specs p kw)).2) = some v
  rw [e2, hs]
  rfl

/-- **C162**, partial for `load` without keywords: the patch is not changed when its values have the types of those of the file. -/
theorem C162_load_partial {S : Type} {T : Typing V} (hT : T.Lawful) (specs : List (Str × CT S)) (src p : List (Str × CT V)) (hcomp : Compatible src p)
    (hty : ∀ r u v, leafAt r (.sec src) = some u → leafAt r (.sec p) = some v → T.ty u = T.ty v) :
    SameOptions (loadPatchAfter T specs src [] (.obj p)).tree p := C162_patch_partial hT specs src p hcomp hty

/-! ## C163 -/

/-- the file that `arg_patch` loads -/
theorem parsedFile_eq (B : ValOps V) (T : Typing V) (boolFalse : Bool) (specs : List (Str × CT (OptSpec V))) (fs : Str → Option (List (Str × CT V))) (exc : List Str)
    (given : List (Str × Option Str)) (cfg : List (Str × CT V)) (h : argParse B T boolFalse specs fs { exc := exc } given = .ok cfg)
    (f : Str) (hf : FileIs given (some "config.cfg".toList) (some f)) : parsedFile B boolFalse specs exc given = some f := by
  obtain ⟨ds, st, hd, hp, -⟩ := argParse_ok' B T boolFalse specs fs { exc := exc } given cfg h
  obtain ⟨hok, -⟩ := declare_ok boolFalse exc [] specs ds hd
  have hn : NestedOk ([] : Str) := ⟨rfl, by simp⟩
  have hfile := (parseArgs_spec B hn hok given (some "config.cfg".toList) st hp).2.1 _ hf
  unfold parsedFile
  simp only [hd]
  simp only [hp]
  exact hfile

theorem argPatch_ok (B : ValOps V) (T : Typing V) (boolFalse : Bool) (specs : List (Str × CT (OptSpec V))) (fs : Str → Option (List (Str × CT V))) (exc : List Str)
    (given : List (Str × Option Str)) (cfg : List (Str × CT V)) (h : argPatch B T boolFalse specs fs exc given = .ok cfg)
    (f : Str) (hf : FileIs given (some "config.cfg".toList) (some f)) :
    ∃ p, argParse B T boolFalse specs fs { exc := exc } given = .ok p ∧ cfg = patchCfg T specs (loadCfg specs fs f) p := by
  unfold argPatch at h
  split at h
  · cases h
  · rename_i p hp
    injection h with h
    refine ⟨p, hp, ?_⟩
    rw [← h, parsedFile_eq B T boolFalse specs fs exc given p hp f hf]

theorem argParse_within {T : Typing V} (hT : T.Lawful) (B : ValOps V) (boolFalse : Bool) (specs : List (Str × CT (OptSpec V))) (hw : WfTree (.sec specs))
    (fs : Str → Option (List (Str × CT V))) (exc : List Str) (given : List (Str × Option Str)) (p : List (Str × CT V))
    (h : argParse B T boolFalse specs fs { exc := exc } given = .ok p) (f : Str) (hf : FileIs given (some "config.cfg".toList) (some f))
    (K : List Str → Bool → Prop) (hK : ∀ r b b', K r b → K r b' → b = b') (hs : Within K specs) (hfile : ∀ c, fs f = some c → Within K c) : Within K p := by
  obtain ⟨ds, st, hd, hp, e⟩ := argParse_ok' B T boolFalse specs fs { exc := exc } given p h
  obtain ⟨hok, -⟩ := declare_ok boolFalse exc [] specs ds hd
  have hn : NestedOk ([] : Str) := ⟨rfl, by simp⟩
  have hst := (parseArgs_spec B hn hok given (some "config.cfg".toList) st hp).2.1 _ hf
  rw [e, hst]
  dsimp only
  have hwhen : ((.str "before".toList : CfgfilePatch)).when = .before := by decide +kernel
  rw [if_neg (by rw [hwhen]; simp), if_pos hwhen]
  refine within_setCfg _ hw hs _ ?_
  split
  · exact within_nil hs
  · exact within_patch hK hT specs (within_nil hs) (within_load hw hs fs f hfile)

/-- **C163** (command line): after `arg_patch`, an option given on the command line has its value of the command line, when it has the type of its value in
the configuration file (of its default when the file does not have it). -/
theorem C163_command_line (B : ValOps V) (T : Typing V) (hT : T.Lawful) (boolFalse : Bool) (specs : List (Str × CT (OptSpec V))) (hw : WfTree (.sec specs))
    (fs : Str → Option (List (Str × CT V))) (exc : List Str) (given : List (Str × Option Str)) (cfg : List (Str × CT V))
    (h : argPatch B T boolFalse specs fs exc given = .ok cfg) (f : Str) (hf : FileIs given (some "config.cfg".toList) (some f))
    (hshape : SameShapes specs (fs f) .no) (path : List Str) (key : Str) (s : OptSpec V) (hs : Settable specs exc path key s) (text : Option Str)
    (hg : LastGiven given (longOption [] path key) text)
    (hty : ∀ v, CommandValue B boolFalse s text v → T.ty (fileOrDflt fs f path key s) = T.ty v) :
    ∃ v, CommandValue B boolFalse s text v ∧ leafAt (path ++ [key]) (.sec cfg) = some v := by
  obtain ⟨p, hp, e⟩ := argPatch_ok B T boolFalse specs fs exc given cfg h f hf
  have hn : NestedOk ([] : Str) := ⟨rfl, by simp⟩
  have hask : ¬ AsksAfter (.str "before".toList) := by
    rw [← (C118_when _).1]
    decide +kernel
  obtain ⟨v, h1, h2⟩ := C116_command_line B T boolFalse specs hw fs { exc := exc } hn hask given p hp path key s hs text hg
  refine ⟨v, h1, ?_⟩
  have hK := hshape.functional
  have hsp : Within (shapesOf specs (fs f) .no) specs := fun r b hb => Or.inl hb
  have hfl : ∀ c, fs f = some c → Within (shapesOf specs (fs f) .no) c := fun c hc r b hb => Or.inr (Or.inl ⟨c, hc, hb⟩)
  have wp := argParse_within hT B boolFalse specs hw fs exc given p hp f hf _ hK hsp hfl
  rw [e, C57_patched hT specs _ p (within_compatible hK (within_load hw hsp fs f hfl) wp) path key hs.clean v h2, C117_load specs hw fs f path key s hs.leaf]
  rw [coerced_same hT _ _ (by rintro u hu; injection hu with hu; subst hu; exact hty v h1)]

/-- **C163**, partial (file, then defaults): an option that is not given on the command line has its value of the configuration file if there is one, else
its default — except boolean options. -/
theorem C163_not_given_partial (B : ValOps V) (T : Typing V) (hT : T.Lawful) (boolFalse : Bool) (specs : List (Str × CT (OptSpec V))) (hw : WfTree (.sec specs))
    (fs : Str → Option (List (Str × CT V))) (exc : List Str) (given : List (Str × Option Str)) (cfg : List (Str × CT V))
    (h : argPatch B T boolFalse specs fs exc given = .ok cfg) (f : Str) (hf : FileIs given (some "config.cfg".toList) (some f)) (hne : f ≠ [])
    (hshape : SameShapes specs (fs f) .no) (path : List Str) (key : Str) (s : OptSpec V) (hs : Settable specs exc path key s)
    (hbool : boolFalse = false ∨ s.isBool = false) (hg : NotGiven given (longOption [] path key)) :
    leafAt (path ++ [key]) (.sec cfg) = some (((fs f).bind (fun c => leafAt (path ++ [key]) (.sec c))).getD s.dflt) := by
  obtain ⟨p, hp, e⟩ := argPatch_ok B T boolFalse specs fs exc given cfg h f hf
  have hn : NestedOk ([] : Str) := ⟨rfl, by simp⟩
  have hwh : ((.str "before".toList : CfgfilePatch)).when = .before := by decide +kernel
  have hask := (C118_when (.str "before".toList)).2.2.1 hwh
  have h2 := C117_not_given_partial B T hT boolFalse specs hw fs { exc := exc } hn rfl hask given p hp path key s hs hbool hg f hf hne
  have hK := hshape.functional
  have hsp : Within (shapesOf specs (fs f) .no) specs := fun r b hb => Or.inl hb
  have hfl : ∀ c, fs f = some c → Within (shapesOf specs (fs f) .no) c := fun c hc r b hb => Or.inr (Or.inl ⟨c, hc, hb⟩)
  have wp := argParse_within hT B boolFalse specs hw fs exc given p hp f hf _ hK hsp hfl
  rw [e, C57_patched hT specs _ p (within_compatible hK (within_load hw hsp fs f hfl) wp) path key hs.clean _ h2, C117_load specs hw fs f path key s hs.leaf]
  rw [coerced_same hT _ _ (by rintro u hu; injection hu with hu; subst hu; rfl)]

/-- **C163 is violated** by boolean options: one that is not given becomes its default, whatever the configuration file says. -/
theorem C163_flag_violated (B : ValOps V) (T : Typing V) (hT : T.Lawful) (specs : List (Str × CT (OptSpec V))) (hw : WfTree (.sec specs))
    (fs : Str → Option (List (Str × CT V))) (exc : List Str) (given : List (Str × Option Str)) (cfg : List (Str × CT V))
    (h : argPatch B T true specs fs exc given = .ok cfg) (f : Str) (hf : FileIs given (some "config.cfg".toList) (some f))
    (hshape : SameShapes specs (fs f) .no) (path : List Str) (key : Str) (s : OptSpec V) (hs : Settable specs exc path key s)
    (hb : s.isBool = true) (hg : NotGiven given (longOption [] path key))
    (hty : T.ty (fileOrDflt fs f path key s) = T.ty (B.ofBool (!B.isFalse s.dflt))) :
    leafAt (path ++ [key]) (.sec cfg) = some (B.ofBool (!B.isFalse s.dflt)) := by
  obtain ⟨p, hp, e⟩ := argPatch_ok B T true specs fs exc given cfg h f hf
  have hn : NestedOk ([] : Str) := ⟨rfl, by simp⟩
  have hask : ¬ AsksAfter (.str "before".toList) := by
    rw [← (C118_when _).1]
    decide +kernel
  have h2 := C117_flag_violated B T specs hw fs { exc := exc } hn hask given p hp path key s hs hb hg
  have hK := hshape.functional
  have hsp : Within (shapesOf specs (fs f) .no) specs := fun r b hb => Or.inl hb
  have hfl : ∀ c, fs f = some c → Within (shapesOf specs (fs f) .no) c := fun c hc r b hb => Or.inr (Or.inl ⟨c, hc, hb⟩)
  have wp := argParse_within hT B true specs hw fs exc given p hp f hf _ hK hsp hfl
  rw [e, C57_patched hT specs _ p (within_compatible hK (within_load hw hsp fs f hfl) wp) path key hs.clean _ h2, C117_load specs hw fs f path key s hs.leaf]
  rw [coerced_same hT _ _ (by rintro u hu; injection hu with hu; subst hu; exact hty)]

/-- **C163** (`cfgargparse`), partial: an option given on the command line has its value of the command line; another one has its value of the
configuration file, else its default. Missing: boolean options that are not given (`C117_flag_violated`). -/
theorem C163_cfgargparse_partial (B : ValOps V) (T : Typing V) (hT : T.Lawful) (boolFalse : Bool) (specs : List (Str × CT (OptSpec V))) (hw : WfTree (.sec specs))
    (fs : Str → Option (List (Str × CT V))) (cfgfile : Str) (exc : List Str) (given : List (Str × Option Str)) (cfg : List (Str × CT V))
    (h : cfgArgParse B T boolFalse specs fs cfgfile exc given = .ok cfg) (path : List Str) (key : Str) (s : OptSpec V) (hs : Settable specs exc path key s) :
    (∀ text, LastGiven given (longOption [] path key) text → ∃ v, CommandValue B boolFalse s text v ∧ leafAt (path ++ [key]) (.sec cfg) = some v) ∧
    ((boolFalse = false ∨ s.isBool = false) → NotGiven given (longOption [] path key) → ∀ f, f ≠ [] → FileIs given (some cfgfile) (some f) →
      leafAt (path ++ [key]) (.sec cfg) = some (((fs f).bind (fun c => leafAt (path ++ [key]) (.sec c))).getD s.dflt)) := by
  have hn : NestedOk ([] : Str) := ⟨rfl, by simp⟩
  have hwh : ((.str "before".toList : CfgfilePatch)).when = .before := by decide +kernel
  have hask := (C118_when (.str "before".toList)).2.2.1 hwh
  exact ⟨fun text hg => C116_command_line B T boolFalse specs hw fs { exc := exc, cfgfile := some cfgfile } hn hask.1 given cfg h path key s hs text hg,
    fun hb hg f hne hf => C117_not_given_partial B T hT boolFalse specs hw fs { exc := exc, cfgfile := some cfgfile } hn rfl hask given cfg h path key s hs hb hg f hf hne⟩

/-! ## Concrete cases -/

/-- `n = integer` (texts of `1` converted to their length), without default -/
def lvInt : LoadSpec AV := ⟨fun v => match v with
  | .n x => some (.n x)
  | .s t => unary t
  | .b _ => none, none⟩
/-- `name = string(default=a)` -/
def lvStr : LoadSpec AV := ⟨fun v => match v with
  | .s t => some (.s t)
  | _ => none, some (.s "a".toList)⟩
/-- specifications: `n` and `[sec] name` -/
def lvSpecs : List (Str × CT (LoadSpec AV)) := [("n".toList, .val lvInt), ("sec".toList, .sec [("name".toList, .val lvStr)])]
/-- `config.cfg` has `n = 111`, `other = u`; `bad.cfg` has `n = x` -/
def lvFs (f : Str) : Option (List (Str × CT AV)) :=
  if f = "config.cfg".toList then some [("n".toList, .val (.s "111".toList)), ("other".toList, .val (.s "u".toList))]
  else if f = "bad.cfg".toList then some [("n".toList, .val (.s "x".toList))] else none

def lvLeaves (r : Except LoadErr (List (Str × CT AV))) : Option (List (Option AV)) :=
  match r with
  | .error _ => none
  | .ok c => some [leafAt ["n".toList] (.sec c), leafAt ["sec".toList, "name".toList] (.sec c), leafAt ["other".toList] (.sec c)]

/-- the file, checked, the default, and what the specifications do not know -/
example : lvLeaves (loadFull avTyping lvSpecs none false lvFs {}) = some [some (.n 3), some (.s "a".toList), some (.s "u".toList)] := by decide +kernel
/-- a patch and a keyword -/
example : lvLeaves (loadFull avTyping lvSpecs none false lvFs { patch := some (.dict [("n".toList, .val (.s "11".toList)), ("sec".toList, .sec [("name".toList, .val (.s "p".toList))])]), kw := [("n".toList, .val (.s "1".toList))] }) =
    some [some (.n 1), some (.s "p".toList), some (.s "u".toList)] := by decide +kernel
/-- no validation: nothing is checked, no default -/
example : lvLeaves (loadFull avTyping lvSpecs none false lvFs { validate := .flag false }) = some [some (.s "111".toList), none, some (.s "u".toList)] := by decide +kernel
/-- a value that is refused, in all the modes; a value that is missing -/
example : lvLeaves (loadFull avTyping lvSpecs none false lvFs { cfgfile := .name "bad.cfg".toList, validate := .str "report".toList }) = none ∧
    lvLeaves (loadFull avTyping lvSpecs none false lvFs { cfgfile := .name "bad.cfg".toList, validate := .str "fix".toList }) = none ∧
    lvLeaves (loadFull avTyping lvSpecs none false lvFs { cfgfile := .none }) = none ∧
    lvLeaves (loadFull avTyping lvSpecs none false lvFs { cfgfile := .name "no.cfg".toList }) = none := by decide +kernel
/-- `load(None)` succeeds with a keyword -/
example : lvLeaves (loadFull avTyping lvSpecs none false lvFs { cfgfile := .none, kw := [("n".toList, .val (.n 2))] }) = some [some (.n 2), some (.s "a".toList), none] := by decide +kernel
/-- a section given in place of an option, and the opposite -/
example : lvLeaves (loadFull avTyping lvSpecs none false lvFs { cfgfile := .cfg [("n".toList, .sec [])] }) = none ∧
    lvLeaves (loadFull avTyping lvSpecs none false lvFs { cfgfile := .cfg [("n".toList, .val (.n 1)), ("sec".toList, .val (.n 1))] }) = none := by decide +kernel
/-- the filter of the manager; a filter given to `load` is not used when the manager has none -/
example : lvLeaves (loadFull avTyping lvSpecs (some ⟨none, none, [("n".toList, .flag true)]⟩) false lvFs { cfgfilter := .flag true }) = some [some (.n 3), some (.s "a".toList), none] ∧
    lvLeaves (loadFull avTyping lvSpecs none false lvFs { cfgfilter := .dict ⟨none, none, [("n".toList, .flag true)]⟩ }) = some [some (.n 3), some (.s "a".toList), some (.s "u".toList)] := by
  decide +kernel

/-- the shapes that the examples have -/
def lvKind (r : List Str) (b : Bool) : Prop := kindAt r (.sec lvSpecs) = some b ∨ (r = ["other".toList] ∧ b = false)

theorem lvKind_fun (r : List Str) (b b' : Bool) (h1 : lvKind r b) (h2 : lvKind r b') : b = b' := by
  have no : kindAt ["other".toList] (.sec lvSpecs) = none := rfl
  rcases h1 with h1 | ⟨e1, h1⟩ <;> rcases h2 with h2 | ⟨e2, h2⟩
  · rw [h1] at h2; injection h2
  · rw [e2, no] at h1; cases h1
  · rw [e1, no] at h2; cases h2
  · rw [h1, h2]

example : AgreeingKinds lvSpecs (loadTrees lvFs { kw := [("n".toList, .val (.s "1".toList))] }) := by
  refine ⟨lvKind, lvKind_fun, fun r b hb => Or.inl hb, ?_⟩
  intro t ht
  have two : ∀ (k : Str) (v : AV), k = "n".toList ∨ k = "other".toList → ∀ r b, kindAt r (.sec [(k, CT.val v)]) = some b → lvKind r b := by
    intro k v hk r b hb
    match r with
    | [] => exact Or.inl hb
    | a :: r =>
      simp only [kindAt, getT, lookupS] at hb
      by_cases h1 : a = k
      · rw [if_pos h1] at hb
        cases r with
        | nil =>
          simp only [getT, Option.bind_some] at hb
          subst h1
          injection hb with hb
          subst hb
          rcases hk with h | h
          · rw [h]; exact Or.inl rfl
          · rw [h]; exact Or.inr ⟨rfl, rfl⟩
        | cons c r => simp [getT] at hb
      · rw [if_neg h1] at hb
        simp at hb
  simp only [loadTrees, List.mem_cons, List.not_mem_nil, or_false] at ht
  rcases ht with rfl | rfl | rfl
  · intro r b hb
    match r with
    | [] => exact Or.inl hb
    | a :: r =>
      have e : readCfg lvFs (.name "config.cfg".toList) = [("n".toList, CT.val (.s "111".toList)), ("other".toList, .val (.s "u".toList))] := rfl
      rw [e] at hb
      by_cases h1 : a = "n".toList
      · refine two "n".toList (.s "111".toList) (Or.inl rfl) _ b ?_
        simp only [kindAt, getT, lookupS, h1, if_true] at hb ⊢
        exact hb
      · refine two "other".toList (.s "u".toList) (Or.inr rfl) _ b ?_
        simp only [kindAt, getT, lookupS] at hb ⊢
        rw [if_neg h1] at hb
        exact hb
  · exact within_nil (specs := lvSpecs) (fun r b hb => Or.inl hb)
  · exact two _ _ (Or.inl rfl)

example : ∀ path key s, leafAt (path ++ [key]) (.sec lvSpecs) = some s → cleanPath path := by
  intro path key s h
  rw [leafAt_eq_some] at h
  match path with
  | [] => rfl
  | k :: q =>
    simp only [List.cons_append, getT, lvSpecs, lookupS] at h
    by_cases h1 : k = "n".toList
    · rw [if_pos h1] at h
      cases q <;> simp [getT] at h
    · rw [if_neg h1] at h
      by_cases h2 : k = "sec".toList
      · rw [if_pos h2] at h
        cases q with
        | nil => rw [h2]; unfold cleanPath; decide
        | cons a q =>
          simp only [List.cons_append, getT, Option.bind_some, lookupS] at h
          by_cases h3 : a = "name".toList
          · rw [if_pos h3] at h
            cases q <;> simp [getT] at h
          · rw [if_neg h3] at h; simp at h
      · rw [if_neg h2] at h; simp at h

example : WfTree (.sec lvSpecs) := by
  intro r l h
  match r with
  | [] =>
    simp only [getT] at h
    injection h with h
    injection h with h
    subst h
    simp only [lvSpecs, List.map_cons, List.map_nil]
    decide
  | k :: r =>
    simp only [getT, lvSpecs, lookupS] at h
    by_cases h1 : k = "n".toList
    · rw [if_pos h1] at h
      cases r <;> simp [getT] at h
    · rw [if_neg h1] at h
      by_cases h2 : k = "sec".toList
      · rw [if_pos h2] at h
        match r with
        | [] =>
          simp only [getT, Option.bind_some] at h
          injection h with h
          injection h with h
          subst h
          rw [List.map_cons, List.map_nil]
          decide
        | a :: r =>
          simp only [getT, Option.bind_some, lookupS] at h
          by_cases h3 : a = "name".toList
          · rw [if_pos h3] at h
            cases r <;> simp [getT] at h
          · rw [if_neg h3] at h; simp at h
      · rw [if_neg h2] at h; simp at h

example : usedFilter none (.flag false) = none ∧ usedFilter (some ⟨some true, none, []⟩) (.flag false) = none := ⟨rfl, rfl⟩

/-- C161_idempotent: the checks accept what they give -/
example : (∀ v w, lvInt.chk v = some w → lvInt.chk w = some w) ∧ (∀ v w, lvStr.chk v = some w → lvStr.chk w = some w) ∧
    (∀ d, lvInt.dflt = some d → lvInt.chk d = some d) ∧ ∀ d, lvStr.dflt = some d → lvStr.chk d = some d := by
  refine ⟨?_, ?_, ?_, ?_⟩
  · intro v w h
    cases w with
    | n x => rfl
    | b x => cases v <;> simp [lvInt, unary] at h
    | s x => cases v <;> simp [lvInt, unary] at h
  · intro v w h
    cases v <;> simp [lvStr] at h
    subst h
    rfl
  · rintro d ⟨⟩
  · rintro d ⟨⟩
    rfl

/-- C162: a `ConfigObj` given as a patch is modified: its text `False` becomes the boolean true -/
example : leafAt ["a".toList] (.sec (patchAfter pyTyping ([] : List (Str × CT Unit)) [("a".toList, .val (.bool true))] (.obj [("a".toList, .val (.str "False".toList))])).tree) = some (.bool true) ∧
    pyTyping.cast (pyTyping.ty (.bool true)) (.str "False".toList) = some (.bool true) := by decide +kernel
/-- ... and receives the keywords of `load` -/
example : leafAt ["k".toList] (.sec (loadPatchAfter pyTyping ([] : List (Str × CT Unit)) [] [("k".toList, .val (.bool true))] (.obj [("a".toList, .val (.bool true))])).tree) = some (.bool true) := by
  decide +kernel

/-- C163: the command line, then the file, then the defaults — but the flags ignore the file -/
example : avLeaves (argPatch avOps avTyping true avSpecs avFs []
    [("sec-my-key".toList, some "x".toList), ("cfgfile".toList, some "a.cfg".toList), ("sec-my-key".toList, some "y".toList)]) =
    [some (.n 8), some (.b false), some (.s "y".toList), some (.b true)] := by decide +kernel

end Xoa
