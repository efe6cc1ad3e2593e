import Verif.CfBuiltinAxisProps
import Verif.CfFormatDsProps
import Verif.WrappersProps
import Verif.CfLoadProps

/-!
# Formatting with a built-in item, then recognising it
-/

set_option maxRecDepth 20000

namespace Xoa

/-- the location asked for is none, or made of letters -/
def LetterLoc (loc : LocArg) : Prop := ∀ l, loc = .str l → l = [] ∨ isLoc l

/-- a location that is read in a text is made of letters -/
theorem parsed_isLoc (a : SGAttr) (v l : Str) (h : (parseAttr {} a v).2 = some l) : isLoc l :=
  ((C40_only_valid {} a v (parseAttr {} a v).1 l (by rw [← h])).2 rfl).1

/-- the text written for a value whose root is `v0` -/
theorem formatAttr_text (a : SGAttr) (v v0 s : Str) (loc : LocArg) (std : Bool) (hp : (parseAttr {} a v).1 = v0) (hstd : stdRoot a v0 = v0)
    (hl : LetterLoc loc) (h : formatAttr {} a v loc std = .ok s) : s = v0 ∨ ∃ l, isLoc l ∧ s = fmt (SG.format {} a) v0 l := by
  have hroot : (if std = true then stdRoot a v0 else v0) = v0 := by cases std <;> simp [hstd]
  have hout : ∀ l, isLoc l → isLoc (if std = true then stdLoc a l else l) := by
    intro l hll
    cases std with
    | true => exact stdLoc_isLoc a l hll
    | false => exact hll
  have hfin : ∀ l : Str, isLoc l → s = (if l = [] then v0 else fmt (SG.format {} a) v0 (if std = true then stdLoc a l else l)) →
      s = v0 ∨ ∃ l, isLoc l ∧ s = fmt (SG.format {} a) v0 l := by
    intro l hll e
    rw [if_neg hll.1] at e
    exact Or.inr ⟨_, hout l hll, e⟩
  have hkeep : ∀ q : Option Str, (parseAttr {} a v).2 = q → s = (match q with
      | none => v0
      | some l => if l = [] then v0 else fmt (SG.format {} a) v0 (if std = true then stdLoc a l else l)) →
      s = v0 ∨ ∃ l, isLoc l ∧ s = fmt (SG.format {} a) v0 l := by
    intro q hq e
    cases q with
    | none => exact Or.inl e
    | some l => exact hfin l (parsed_isLoc a v l hq) e
  unfold formatAttr at h
  simp only [hp, hroot] at h
  cases loc with
  | keep => simp only [Except.ok.injEq] at h; exact hkeep _ rfl h.symm
  | true_ => simp only [ne_eq, not_true_eq_false, if_false, Except.ok.injEq] at h; exact hkeep _ rfl h.symm
  | no => simp only [Except.ok.injEq] at h; exact Or.inl h.symm
  | str l =>
    simp only at h
    by_cases e : l = []
    · rw [if_pos e] at h
      injection h with h
      exact Or.inl h.symm
    · rw [if_neg e, if_neg (by simp)] at h
      injection h with h
      exact hfin l ((hl l rfl).resolve_left e) h.symm

theorem lower_located (a : SGAttr) (ha : a ≠ .longName) (v s : Str) (hv : lower v = v) (h : s = v ∨ ∃ l, isLoc l ∧ s = fmt (SG.format {} a) v l) :
    lower s = v ∨ ∃ l, isLoc l ∧ lower s = fmt (SG.format {} a) v l := by
  rcases h with rfl | ⟨l, hl, rfl⟩
  · exact Or.inl hv
  · refine Or.inr ⟨lower l, stdLoc_isLoc .standardName l hl, ?_⟩
    cases a with
    | longName => exact absurd rfl ha
    | name =>
      simp only [fmt, SG.format, lower_append, hv]
      rfl
    | standardName =>
      simp only [fmt, SG.format, lower_append, hv]
      rfl

/-- the name of an array after formatting -/
theorem merged_text (x : Str) (old new : Option Str) (loc : LocArg) (hp : parseAttr {} .name x = (x, none)) (hstd : stdRoot .name x = x)
    (hlow : lower x = x) (hl : LetterLoc loc) (h : mergeAttr {} .name old (some x) loc true = .ok new) :
    ∃ s, new = some s ∧ (lower s = x ∨ ∃ l, isLoc l ∧ lower s = fmt (SG.format {} .name) x l) := by
  have key : ∀ loc', LetterLoc loc' → (formatAttr {} .name x loc' true).map some = .ok new →
      ∃ s, new = some s ∧ (lower s = x ∨ ∃ l, isLoc l ∧ lower s = fmt (SG.format {} .name) x l) := by
    intro loc' hl' h'
    obtain ⟨s, hs, rfl⟩ := exceptMap_inv h'
    exact ⟨s, rfl, lower_located .name (by decide) x s hlow (formatAttr_text .name x x s loc' true (by rw [hp]) hstd hl' hs)⟩
  cases old with
  | none => exact key loc hl h
  | some o =>
    unfold mergeAttr at h
    simp only [hp] at h
    refine key _ ?_ h
    by_cases hk : loc = .keep ∨ loc = .str "any".toList
    · rw [if_pos hk]
      cases ho : (parseAttr {} .name o).2 with
      | none => exact hl
      | some l =>
        intro l' e
        injection e with e
        rw [← e]
        exact Or.inr (parsed_isLoc .name o l ho)
    · rw [if_neg hk]; exact hl

/-- the standard names of the patch begin with the first one of the item -/
theorem patch_std (spec : CfSpec) (patch : Attrs) (hs : (spec.attrs.map Prod.fst).Nodup) (h : patchOf {} spec .cf = .ok patch) :
    (patch.map Prod.fst).Nodup ∧
    (∀ v l, lookupS "standard_name".toList spec.attrs = some (.list (v :: l)) → formatAttr {} .standardName v .keep false = .ok v →
      ∃ l', lookupS "standard_name".toList patch = some (.list (v :: l'))) ∧
    (lookupS "standard_name".toList spec.attrs = some (.list []) → lookupS "standard_name".toList patch = none) := by
  have h' : formatAttrs {} .keep false (specAttrs true spec.attrs) = .ok patch := by
    have : updateS (specAttrs true spec.attrs) [] = specAttrs true spec.attrs := rfl
    rw [← this]
    exact h
  obtain ⟨f1, f2⟩ := formatAttrs_lookup {} .keep false "standard_name".toList _ patch h'
  refine ⟨?_, ?_, ?_⟩
  · rw [formatAttrs_keys _ _ _ _ _ h']
    exact (specAttrs_keys true spec.attrs).nodup hs
  · intro v l hv hp
    have hl : lookupS "standard_name".toList (specAttrs true spec.attrs) = some (.list (v :: l)) := by
      rw [specAttrs_lookup true _ _ hs, hv]; rfl
    obtain ⟨v', hi, hl'⟩ := f2 _ hl
    have hi' : ((v :: l).mapM (fun s => formatAttr {} .standardName s .keep false)).map AttrVal.list = .ok v' := hi
    obtain ⟨lm, hlm, rfl⟩ := exceptMap_inv hi'
    rw [List.mapM_cons] at hlm
    obtain ⟨v1, hv1, hrest⟩ := exceptBind_inv hlm
    obtain ⟨l1, hl1, hend⟩ := exceptBind_inv hrest
    have hv1' : v1 = v := by
      rw [hp] at hv1
      injection hv1 with hv1
      exact hv1.symm
    injection hend with hend
    rw [← hend, hv1'] at hl'
    exact ⟨l1, hl'⟩
  · intro hv
    apply f1
    rw [specAttrs_lookup true _ _ hs, hv]; rfl

/-- the items that can be named, and have a first standard name whose root is one of their standard names -/
def roundable (p : Str × CfSpec) : Bool :=
  (parseAttr {} .name p.1 == (p.1, none)) && (stdRoot .name p.1 == p.1) && (lower p.1 == p.1) &&
  ((p.2.attrs.map Prod.fst).Nodup : Bool) && (lookupS p.1 builtinVars == some p.2) &&
  (lookupS "standard_name".toList p.2.attrs == some (.list (stdsOf p.2))) &&
  ((stdsOf p.2).head?.all fun v => formatAttr {} .standardName v .keep false == .ok v && stdRoot .standardName (parseAttr {} .standardName v).1 == (parseAttr {} .standardName v).1 &&
    lower (parseAttr {} .standardName v).1 == (parseAttr {} .standardName v).1 && (stdsOf p.2).contains (parseAttr {} .standardName v).1)

theorem vars_roundable : (builtinVars.all roundable) = true := by decide +kernel

/-- (item, the item that the arrays formatted with it are recognised as) -/
def roundTaken : List (Str × Str) := [
  (['s', 'i', 'g', 'm', 'a', '0'], ['p', 'd', 'e', 'n', 's']),
  (['s', 'i', 'g', 'm', 'a', '1'], ['p', 'd', 'e', 'n', 's']),
  (['s', 'i', 'g', 'm', 'a', '2'], ['p', 'd', 'e', 'n', 's']),
  (['s', 'i', 'g', 'm', 'a', '3'], ['p', 'd', 'e', 'n', 's']),
  (['s', 'i', 'g', 'm', 'a', '4'], ['p', 'd', 'e', 'n', 's']),
  (['u', '3', 'd'], ['u']),
  (['v', '3', 'd'], ['v']),
  (['w', '3', 'd'], ['w']),
  (['s', 'p', 'e', 'e', 'd'], ['c', 's', 'p', 'd']),
  (['d', 'l', 'o', 'n'], ['d', 'x']),
  (['w', 'f', 'd', 'i', 'r'], ['w', 'd', 'i', 'r']),
  (['w', 't', 'd', 'i', 'r'], ['w', 'd', 'i', 'r']),
  (['u', 'x', '1', '0', 'm'], ['u', '1', '0', 'm']),
  (['v', 'y', '1', '0', 'm'], ['v', '1', '0', 'm']),
  (['t', 'a', 'u', 'x'], ['t', 'a', 'u', 'u']),
  (['t', 'a', 'u', 'y'], ['t', 'a', 'u', 'v']),
  (['w', 'l', 'v'], ['s', 's', 'h'])]

/-- the first standard name of an item -/
def firstStd (p : Str × CfSpec) : Option Str := (stdsOf p.2).head?

theorem round_safe : (builtinVars.all fun p => roundTaken.any (fun t => t.1 == p.1) || (safeRef .name allNames builtinVars nameLocs p.1 p.1 &&
    (firstStd p).all fun v => safeRef .standardName allStds builtinVars stdLocs p.1 (parseAttr {} .standardName v).1)) = true := by decide +kernel

/-- a text with a location or not, for a safe reference -/
theorem safe_in (a : SGAttr) (ha : a ≠ .longName) (g : Str × CfSpec → List Str) (cat : CfCat) (locs : List Str)
    (hc : cleanRefs a g cat locs = true) (p : Str × CfSpec) (hp : p ∈ cat) (v : Str) (hv : v ∈ g p) (hsafe : safeRef a g cat locs p.1 v = true)
    (t : Str) (ht : t = v ∨ ∃ l, isLoc l ∧ t = fmt (SG.format {} a) v l) : textIn a g cat t = some p.1 := by
  have hcv := List.all_eq_true.1 (List.all_eq_true.1 hc p hp) v hv
  simp only [Bool.and_eq_true, beq_iff_eq, List.all_eq_true] at hcv
  have hroot : isRoot a v := ⟨by intro h; rw [h] at hcv; simp at hcv, fun c hcm => Or.inl (hcv.1.2 c hcm)⟩
  rcases ht with rfl | ⟨l, hl, rfl⟩
  · simp only [safeRef, Bool.and_eq_true, beq_iff_eq] at hsafe
    exact hsafe.1
  · exact located_in a ha g cat locs p.1 v l hc hroot hsafe hl

/-- an item found first both by standard name and by name is found by both together -/
theorem hits_both (cat : CfCat) (t u x : Str) (h1 : textIn .standardName allStds cat t = some x) (h2 : textIn .name allNames cat u = some x) :
    (cat.find? (hits (some t) (some u))).map Prod.fst = some x := by
  induction cat with
  | nil => simp [textIn] at h1
  | cons p rest ih =>
    unfold textIn at h1 h2
    rw [List.find?_cons] at h1 h2 ⊢
    have hh : hits (some t) (some u) p = (hit .standardName (allStds p) t || hit .name (allNames p) u) := rfl
    rw [hh]
    cases e1 : hit .standardName (allStds p) t with
    | true => rw [e1] at h1; exact h1
    | false =>
      cases e2 : hit .name (allNames p) u with
      | true => rw [e2] at h2; exact h2
      | false => rw [e1] at h1; rw [e2] at h2; exact ih h1 h2

/-- what formatting with a built-in item gives: its name, at a location or not, and its first standard name -/
theorem formatted_inv {α} (ccat : CfCat) (x : Str) (spec : CfSpec) (hx : (x, spec) ∈ builtinVars) (o : FOpts) (ho : o.name = some x) (hcf : o.attrs = .cf)
    (hsp : o.specialize = false) (names : List (Str × Str)) (a b : FArr α) (hd : (a.var.attrs.map Prod.fst).Nodup)
    (hstd : lookupS "standard_name".toList a.var.attrs = none) (h : formatDataVar {} builtinVars ccat o true names a = .ok b) :
    (∃ new, mergeAttr {} .name a.name (some x) o.loc true = .ok new ∧ (truthyName new = true → b.name = new)) ∧
    (∀ v, firstStd (x, spec) = some v → ∃ s, formatAttr {} .standardName v o.loc o.standardize = .ok s ∧
      lookupS "standard_name".toList b.var.attrs = some (.str s)) ∧
    (firstStd (x, spec) = none → lookupS "standard_name".toList b.var.attrs = none) := by
  obtain ⟨r, new, cs, m, h1, -, hbn, hba, -⟩ := formatDataVar_inv h
  have hr := List.all_eq_true.1 vars_roundable _ hx
  simp only [roundable, Bool.and_eq_true, beq_iff_eq, decide_eq_true_eq] at hr
  obtain ⟨⟨⟨⟨⟨⟨hp, hsr⟩, hlow⟩, hnd⟩, hlook⟩, hls⟩, hfirst⟩ := hr
  have hu : usedName {} builtinVars o a.name a.var.attrs = .ok (some (x, spec)) := by
    unfold usedName
    rw [ho]
    show (match lookupS x builtinVars with | some spec => _ | none => _) = _
    rw [hlook]
  have h1' : formatWith {} o false x spec a.name a.var.attrs = .ok (r, new) := by
    unfold formatInPlace at h1
    rw [hu] at h1
    exact h1
  obtain ⟨nn, patch, g1, g2, g3, g4⟩ := formatWith_inv h1'
  have hnn : nn = x := by
    unfold getCfName at g1
    rw [hsp] at g1
    unfold formatAttr at g1
    simp only [Bool.false_eq_true, if_false, hp, if_true, hsr, Except.ok.injEq] at g1
    exact g1.symm
  subst hnn
  rw [hcf] at g2
  obtain ⟨q1, q2, q3⟩ := patch_std spec patch hnd g2
  obtain ⟨na, hna, hlk, -⟩ := sgFormat_attrs {} _ _ _ _ _ _ _ _ _ hd q1 g3
  refine ⟨⟨new, g4 rfl, ?_⟩, ?_, ?_⟩
  · intro ht
    rw [hbn, if_pos ht]
  · intro v hv
    have hl : ∃ l, stdsOf spec = v :: l := by
      unfold firstStd at hv
      cases hs : stdsOf spec with
      | nil => rw [show stdsOf (nn, spec).2 = stdsOf spec from rfl, hs] at hv; cases hv
      | cons w l =>
        rw [show stdsOf (nn, spec).2 = stdsOf spec from rfl, hs] at hv
        injection hv with hv
        exact ⟨l, by rw [hv]⟩
    obtain ⟨l, hl⟩ := hl
    have hf : formatAttr {} .standardName v .keep false = .ok v := by
      rw [show stdsOf (nn, spec).2 = stdsOf spec from rfl, hl] at hfirst
      simp only [List.head?_cons, Option.all_some, Bool.and_eq_true, beq_iff_eq] at hfirst
      exact hfirst.1.1.1
    obtain ⟨l', hp'⟩ := q2 v l (by rw [← hl]; exact hls) hf
    obtain ⟨-, m2⟩ := patchAttrs_missing {} _ _ _ _ _ _ q1 hna _ _ hstd hp'
    rw [hba, hlk]
    exact m2 .standardName v (by decide) (Or.inr ⟨l', rfl⟩)
  · intro hv
    have hl : stdsOf spec = [] := by
      unfold firstStd at hv
      exact List.head?_eq_none_iff.1 hv
    rw [hba, hlk]
    by_contra hne
    rcases (C42_no_loss {} _ _ _ _ _ _ q1 hna _).mp hne with e | e
    · exact e hstd
    · exact e (q3 (by rw [← hl]; exact hls))

/-- the standard name of an array made by the formatting methods -/
theorem dobj_std (nm : Option Str) (attrs : Attrs) : (dobjOf nm attrs).get "standard_name".toList = (lookupS "standard_name".toList attrs).map AttrVal.toAVal := by
  unfold DObj.get
  rw [if_neg (by decide)]
  rfl

theorem truthy_text (new : Option Str) (s x : Str) (hx : x ≠ []) (hn : new = some s)
    (h : lower s = x ∨ ∃ l, isLoc l ∧ lower s = fmt (SG.format {} .name) x l) : truthyName new = true := by
  subst hn
  cases s with
  | cons c s => rfl
  | nil =>
    exfalso
    rcases h with h | ⟨l, _, h⟩
    · exact hx h.symm
    · have : (lower ([] : Str)).length = (fmt (SG.format {} .name) x l).length := by rw [h]
      simp [fmt, SG.format, lower] at this

/-- **C175, part.** Every array without standard name that is formatted with the built-in data variable `x` (at any location, or without changing it), with or without
standardisation and whatever its name, its other attributes and its coordinates are, is then recognised as `x`. Missing: the seventeen items of `roundTaken`, for which this is
false (`C175_round_trip_violated`). -/
theorem C175_round_trip_partial {α} (x : Str) (spec : CfSpec) (hx : (x, spec) ∈ loadedVars) (hfree : ∀ y, (x, y) ∉ roundTaken)
    (ccat : CfCat) (o : FOpts) (ho : o.name = some x) (hcf : o.attrs = .cf) (hsp : o.specialize = false) (hloc : LetterLoc o.loc)
    (names : List (Str × Str)) (a b : FArr α) (hd : (a.var.attrs.map Prod.fst).Nodup) (hstd : lookupS "standard_name".toList a.var.attrs = none)
    (h : formatDataVar {} loadedVars ccat o true names a = .ok b) :
    matchAny {} loadedVars .any (dobjOf b.name b.var.attrs) = .ok (some x) := by
  rw [loadedVars_eq] at hx h
  obtain ⟨⟨new, hm, hbn⟩, hs1, hs2⟩ := formatted_inv ccat x spec hx o ho hcf hsp names a b hd hstd h
  have hr := List.all_eq_true.1 vars_roundable _ hx
  simp only [roundable, Bool.and_eq_true, beq_iff_eq, decide_eq_true_eq] at hr
  obtain ⟨⟨⟨⟨⟨⟨hp, hsr⟩, hlow⟩, hnd⟩, hlook⟩, hls⟩, hfirst⟩ := hr
  obtain ⟨s, hns, hst⟩ := merged_text x a.name new o.loc hp hsr hlow hloc hm
  have hclean := List.all_eq_true.1 (List.all_eq_true.1 varNames_clean _ hx) x (List.mem_cons_self ..)
  have hxne : x ≠ [] := by
    intro e
    rw [e] at hclean
    simp at hclean
  have hname : b.name = some s := (hbn (truthy_text new s x hxne hns hst)).trans hns
  have hsafe := List.all_eq_true.1 round_safe _ hx
  rw [Bool.or_eq_true, Bool.and_eq_true] at hsafe
  have hsafe' := hsafe.resolve_left (by
    intro hany
    obtain ⟨⟨x', y⟩, ht, he⟩ := List.any_eq_true.1 hany
    have he' : x' = x := by simpa using he
    rw [he'] at ht
    exact hfree y ht)
  have hT := safe_in .name (by decide) allNames builtinVars nameLocs varNames_clean (x, spec) hx x (List.mem_cons_self ..) hsafe'.1 (lower s) hst
  cases hv : firstStd (x, spec) with
  | none =>
    have hget : (dobjOf b.name b.var.attrs).get "standard_name".toList = none := by rw [dobj_std, hs2 hv]; rfl
    rw [matchVars _ (Or.inl hget), textAttr_none _ _ hget]
    show Except.ok ((builtinVars.find? (hits none (b.name.map lower))).map Prod.fst) = _
    rw [hname, Option.map_some, hits_name, hT]
  | some v =>
    obtain ⟨u, hu, hlu⟩ := hs1 v hv
    have hget : (dobjOf b.name b.var.attrs).get "standard_name".toList = some (.str u) := by rw [dobj_std, hlu]; rfl
    rw [matchVars _ (Or.inr ⟨u, hget⟩), textAttr_some _ _ u hget]
    show Except.ok ((builtinVars.find? (hits (some (lower u)) (b.name.map lower))).map Prod.fst) = _
    rw [hname, Option.map_some]
    rw [show (stdsOf (x, spec).2).head? = some v from hv] at hfirst
    simp only [Option.all_some, Bool.and_eq_true, beq_iff_eq] at hfirst
    obtain ⟨⟨⟨-, hsr'⟩, hlow'⟩, hcont⟩ := hfirst
    have hsafe2 := hsafe'.2
    rw [hv, Option.all_some] at hsafe2
    have hut := lower_located .standardName (by decide) _ u hlow' (formatAttr_text .standardName v _ u o.loc o.standardize rfl hsr' hloc hu)
    have hS := safe_in .standardName (by decide) allStds builtinVars stdLocs varStds_clean (x, spec) hx _ (List.contains_iff_mem.1 hcont) hsafe2 (lower u) hut
    rw [hits_both _ _ _ _ hS hT]

theorem round_taken_check : (roundTaken.all fun t => t.2 != t.1 && (builtinVars.any fun p => p.1 == t.1) && (builtinVars.all fun p => p.1 != t.1 ||
    ((firstStd p).all (fun v => formatAttr {} .standardName v .keep true == .ok v && formatAttr {} .standardName v .keep false == .ok v && lower v == v) &&
      ((builtinVars.find? (hits (firstStd p) (some t.1))).map Prod.fst == some t.2)))) = true := by decide +kernel

/-- **C175 is violated** for seventeen items: an array without standard name and without a name, or with a name without location, that is formatted with `x` is then always recognised
as another item `y`. -/
theorem C175_round_trip_violated (x y : Str) (ht : (x, y) ∈ roundTaken) : y ≠ x ∧ (∃ spec, (x, spec) ∈ loadedVars) ∧
    ∀ {α : Type} (ccat : CfCat) (o : FOpts), o.name = some x → o.attrs = .cf → o.specialize = false → o.loc = .keep → ∀ (names : List (Str × Str)) (a b : FArr α),
      (a.var.attrs.map Prod.fst).Nodup → lookupS "standard_name".toList a.var.attrs = none → (∀ s, a.name = some s → (parseAttr {} .name s).2 = none) →
      formatDataVar {} loadedVars ccat o true names a = .ok b → matchAny {} loadedVars .any (dobjOf b.name b.var.attrs) = .ok (some y) := by
  have hc := List.all_eq_true.1 round_taken_check _ ht
  rw [Bool.and_eq_true, Bool.and_eq_true, bne_iff_ne, List.any_eq_true, List.all_eq_true] at hc
  obtain ⟨⟨hne, ⟨⟨x', spec⟩, hx, hxx⟩⟩, hall⟩ := hc
  obtain rfl : x' = x := by simpa using hxx
  refine ⟨hne, ⟨spec, by rw [loadedVars_eq]; exact hx⟩, ?_⟩
  intro α ccat o ho hcf hsp hk names a b hd hstd hnoloc h
  rw [loadedVars_eq] at h
  obtain ⟨⟨new, hm, hbn⟩, hs1, hs2⟩ := formatted_inv ccat x' spec hx o ho hcf hsp names a b hd hstd h
  have hr := List.all_eq_true.1 vars_roundable _ hx
  simp only [roundable, Bool.and_eq_true, beq_iff_eq, decide_eq_true_eq] at hr
  obtain ⟨⟨⟨⟨⟨⟨hp, hsr⟩, hlow⟩, hnd⟩, hlook⟩, hls⟩, hfirst⟩ := hr
  have hnew : new = some x' := by
    rw [hk] at hm
    have hf : formatAttr {} .name x' .keep true = .ok x' := by
      unfold formatAttr
      simp only [hp, if_true, hsr]
    cases hn : a.name with
    | none =>
      rw [hn] at hm
      unfold mergeAttr at hm
      simp only [hf, Except.map, Except.ok.injEq] at hm
      exact hm.symm
    | some s =>
      rw [hn] at hm
      unfold mergeAttr at hm
      simp only [hp, hnoloc s hn, true_or, if_true, hf, Except.map, Except.ok.injEq] at hm
      exact hm.symm
  have hclean := List.all_eq_true.1 (List.all_eq_true.1 varNames_clean _ hx) x' (List.mem_cons_self ..)
  have hxne : x' ≠ [] := by
    intro e
    rw [e] at hclean
    simp at hclean
  have hname : b.name = some x' := (hbn (truthy_text new x' x' hxne hnew (Or.inl hlow))).trans hnew
  have hx2 := hall (x', spec) hx
  rw [Bool.or_eq_true, bne_iff_ne, Bool.and_eq_true, beq_iff_eq] at hx2
  obtain ⟨hstds, hfind⟩ := hx2.resolve_left (by simp)
  cases hv : firstStd (x', spec) with
  | none =>
    have hget : (dobjOf b.name b.var.attrs).get "standard_name".toList = none := by rw [dobj_std, hs2 hv]; rfl
    rw [matchVars _ (Or.inl hget), textAttr_none _ _ hget]
    show Except.ok ((builtinVars.find? (hits none (b.name.map lower))).map Prod.fst) = _
    rw [hname, Option.map_some, hlow]
    rw [hv] at hfind
    rw [hfind]
  | some v =>
    obtain ⟨u, hu, hlu⟩ := hs1 v hv
    rw [hv] at hstds hfind
    simp only [Option.all_some, Bool.and_eq_true, beq_iff_eq] at hstds
    have huv : u = v := by
      rw [hk] at hu
      cases hos : o.standardize with
      | true => rw [hos, hstds.1.1] at hu; injection hu with hu; exact hu.symm
      | false => rw [hos, hstds.1.2] at hu; injection hu with hu; exact hu.symm
    subst huv
    have hget : (dobjOf b.name b.var.attrs).get "standard_name".toList = some (.str u) := by rw [dobj_std, hlu]; rfl
    rw [matchVars _ (Or.inr ⟨u, hget⟩), textAttr_some _ _ u hget]
    show Except.ok ((builtinVars.find? (hits (some (lower u)) (b.name.map lower))).map Prod.fst) = _
    rw [hname, Option.map_some, hlow, hstds.2, hfind]

/-! ### the hypotheses are met -/

/-- names, standard names and items that are in the built-in specifications, not in the tables, and texts for them -/
example : ((loadedVars.any fun p => p.1 == "sal".toList && (p.2.names.contains "psal".toList && (stdsOf p.2).contains "sea_water_salinity".toList)) = true) ∧
    (∀ y, ("sal".toList, "psal".toList, y) ∉ varNamesTaken) ∧ (∀ y, ("sal".toList, "sea_water_salinity".toList, y) ∉ varStdsTaken) ∧
    (∀ y, ("sal".toList, y) ∉ roundTaken) ∧
    NameText "psal".toList "PSAL_rho".toList ∧ StdText "sea_water_salinity".toList "sea_water_salinity_at_t_location".toList := by
  have h1 : ∀ t ∈ varNamesTaken, t.1 ≠ "sal".toList := by decide
  have h2 : ∀ t ∈ varStdsTaken, t.1 ≠ "sal".toList := by decide
  have h3 : ∀ t ∈ roundTaken, t.1 ≠ "sal".toList := by decide
  refine ⟨by rw [loadedVars_eq]; decide +kernel, fun y h => h1 _ h rfl, fun y h => h2 _ h rfl, fun y h => h3 _ h rfl,
    Or.inr ⟨"rho".toList, ⟨by decide, by decide⟩, by decide⟩, Or.inr ⟨"t".toList, ⟨by decide, by decide⟩, by decide⟩⟩

/-- an array without name, and one with a name that no item has -/
example : Silent loadedVars none ∧ Silent loadedVars (some "banana".toList) ∧ Silent loadedCoords none := by
  have h0 : builtinVars.find? (hits none none) = none := by decide +kernel
  have h1 : builtinVars.find? (hits none (some "banana".toList)) = none := by decide +kernel
  have h2 : builtinCoords.find? (hits none none) = none := by decide +kernel
  have hg : ∀ name : Option Str, textAttr ⟨name, fun _ => none⟩ "standard_name".toList = none := fun name => textAttr_none _ _ (bare_get name)
  refine ⟨?_, ?_, ?_⟩
  · unfold Silent
    rw [matchVars _ (Or.inl (bare_get none)), hg]
    show Except.ok ((builtinVars.find? (hits none none)).map Prod.fst) = _
    rw [h0]; rfl
  · unfold Silent
    rw [matchVars _ (Or.inl (bare_get _)), hg]
    show Except.ok ((builtinVars.find? (hits none (some "banana".toList))).map Prod.fst) = _
    rw [h1]; rfl
  · unfold Silent
    rw [matchCoords _ (Or.inl (bare_get _)) (by unfold DObj.get; rw [if_neg (by decide)]) (by unfold DObj.get; rw [if_neg (by decide)]), hg]
    show Except.ok ((builtinCoords.find? (hits none none)).map Prod.fst) = _
    rw [h2]; rfl

/-- an array that is formatted with `sal` at a location -/
example : (∃ b, formatDataVar {} loadedVars [] { name := some "sal".toList, loc := .str "rho".toList } true []
      (⟨some "S".toList, ⟨[], [("units".toList, .str "psu".toList)], 0⟩, []⟩ : FArr Nat) = .ok b ∧ b.name = some "sal_rho".toList) ∧
    LetterLoc (.str "rho".toList) := by
  refine ⟨?_, fun l h => ?_⟩
  · rw [loadedVars_eq]
    refine ⟨⟨some "sal_rho".toList, ⟨[], [("units".toList, .str "psu".toList), ("standard_name".toList, .str "sea_water_salinity_at_rho_location".toList),
      ("long_name".toList, .str "Salinity at RHO location".toList)], 0⟩, []⟩, ?_, rfl⟩
    rfl
  · injection h with h
    rw [← h]
    exact Or.inr ⟨by decide, by decide⟩

/-- a depth with an axis: the question raises -/
example : (loadedCoords.any fun p => p.1 == "depth".toList) = true ∧ (∀ y, ("depth".toList, "depth".toList, y) ∉ coordNamesTaken) ∧
    "depth".toList ∉ ["time".toList, "lon".toList, "lat".toList, "x".toList] ∧ NameText "depth".toList "depth".toList ∧ lower (strip "Z".toList) ≠ "t".toList ∧
    matchAny {} loadedCoords .any (mkObj "depth" [("axis", .str "Z".toList), ("units", .str "m".toList)]) = .error .typeError := by
  have h1 : ∀ t ∈ coordNamesTaken, t.1 ≠ "depth".toList := by decide
  refine ⟨by rw [loadedCoords_eq]; decide +kernel, fun y h => h1 _ h rfl, by decide, Or.inl (by decide), by decide, ?_⟩
  rw [loadedCoords_eq]
  decide +kernel

end Xoa
