import Verif.CfFormatMoreProps

/-! # When formatting succeeds (C109, C142) -/

namespace Xoa

/-- a location that can be asked for: none, removal, or one that the locator declares -/
def LocAllowed (sg : SG) (loc : LocArg) : Prop :=
  loc = .keep ∨ loc = .no ∨ (loc = .true_ ∧ sg.valid = []) ∨ ∃ s, loc = .str s ∧ (s = [] ∨ sg.valid = [] ∨ lower s ∈ sg.valid)

/-- the declared locations are in lower case -/
def SG.lowerValid (sg : SG) : Prop := ∀ l ∈ sg.valid, lower l = l

/-- the attributes with a location -/
def locatedKeys : List Str := ["name".toList, "standard_name".toList, "long_name".toList]

/-- the attributes that carry a location are texts -/
def TextAttrs (attrs : Attrs) : Prop := ∀ p ∈ attrs, p.1 ∈ locatedKeys → ∃ s, p.2 = .str s

/-- the attributes to set that carry a location are texts or non empty lists of texts -/
def PatchAttrs (attrs : Attrs) : Prop := ∀ p ∈ attrs, p.1 ∈ locatedKeys → (∃ s, p.2 = .str s) ∨ ∃ s l, p.2 = .list (s :: l)

theorem sgAttrOf_located (k : Str) (a : SGAttr) (h : sgAttrOf k = some a) : k ∈ locatedKeys := by
  unfold sgAttrOf at h
  unfold locatedKeys
  split at h
  · next e => rw [e]; exact List.mem_cons_self
  · split at h
    · next e => rw [e]; exact List.mem_cons_of_mem _ List.mem_cons_self
    · split at h
      · next e => rw [e]; exact List.mem_cons_of_mem _ (List.mem_cons_of_mem _ List.mem_cons_self)
      · exact absurd h (by simp)

theorem formatAttr_ok (sg : SG) (attr : SGAttr) (v : Str) (loc : LocArg) (std : Bool) (h : LocAllowed sg loc) : ∃ s, formatAttr sg attr v loc std = .ok s := by
  unfold formatAttr
  rcases h with rfl | rfl | ⟨rfl, hv⟩ | ⟨s, rfl, hs⟩
  · exact ⟨_, rfl⟩
  · exact ⟨_, rfl⟩
  · simp only [hv, ne_eq, not_true, if_false]
    exact ⟨_, rfl⟩
  · simp only
    by_cases e : s = []
    · rw [if_pos e]; exact ⟨_, rfl⟩
    · rw [if_neg e]
      have : ¬ (sg.valid ≠ [] ∧ lower s ∉ sg.valid) := by
        rintro ⟨h1, h2⟩
        rcases hs with hs | hs | hs
        · exact e hs
        · exact h1 hs
        · exact h2 hs
      rw [if_neg this]
      exact ⟨_, rfl⟩

theorem locAllowed_parsed (sg : SG) (hl : sg.lowerValid) (attr : SGAttr) (v l : Str) (h : (parseAttr sg attr v).2 = some l) :
    LocAllowed sg (.str l) := by
  refine .inr (.inr (.inr ⟨l, rfl, ?_⟩))
  by_cases hv : sg.valid = []
  · exact .inr (.inl hv)
  · obtain ⟨w, hw, e⟩ := (C40_only_valid sg attr v (parseAttr sg attr v).1 l (by rw [← h])).1 hv
    refine .inr (.inr ?_)
    rw [e, lower_lower, hl w hw]
    exact hw

theorem exceptMap_some_ok {ε α : Type} {x : Except ε α} (h : ∃ s, x = .ok s) : ∃ s, x.map some = .ok (some s) := by
  obtain ⟨s, rfl⟩ := h
  exact ⟨s, rfl⟩

theorem mergeAttr_ok (sg : SG) (hl : sg.lowerValid) (attr : SGAttr) (v0 : Option Str) (v1 : Str) (loc : LocArg) (std : Bool) (h : LocAllowed sg loc) :
    ∃ s, mergeAttr sg attr v0 (some v1) loc std = .ok (some s) := by
  cases v0 with
  | none => exact exceptMap_some_ok (formatAttr_ok sg attr v1 loc std h)
  | some v0 =>
    refine exceptMap_some_ok (formatAttr_ok sg attr v1 _ std ?_)
    split
    · cases h1 : (parseAttr sg attr v1).2 with
      | some l => exact locAllowed_parsed sg hl attr v1 l h1
      | none =>
        cases h0 : (parseAttr sg attr v0).2 with
        | some l => exact locAllowed_parsed sg hl attr v0 l h0
        | none => exact h
    · exact h

theorem mapM_formatAttr_ok (sg : SG) (attr : SGAttr) (loc : LocArg) (std : Bool) (h : LocAllowed sg loc) :
    ∀ l : List Str, ∃ l', l.mapM (fun s => formatAttr sg attr s loc std) = .ok l' ∧ l'.length = l.length := by
  intro l
  induction l with
  | nil => exact ⟨[], rfl, rfl⟩
  | cons x l ih =>
    obtain ⟨l', e, hl⟩ := ih
    obtain ⟨s, es⟩ := formatAttr_ok sg attr x loc std h
    refine ⟨s :: l', ?_, by simp [hl]⟩
    rw [List.mapM_cons, es, e]
    rfl

/-- what formatting an attribute gives: a text for a text, a list of the same size for a list -/
theorem formatItem_ok (sg : SG) (loc : LocArg) (std : Bool) (h : LocAllowed sg loc) (k : Str) (v : AttrVal) :
    ∃ v', formatItem sg loc std k v = .ok v' ∧ ((∃ s, v = .str s) → ∃ s, v' = .str s) ∧
      ((∃ s l, v = .list (s :: l)) → ∃ s l, v' = .list (s :: l)) := by
  have key : ∀ a : SGAttr, ∃ v', (match v with
      | .str s => (formatAttr sg a s loc std).map AttrVal.str
      | .list l => (l.mapM (fun s => formatAttr sg a s loc std)).map AttrVal.list
      | .other n => Except.ok (.other n)) = Except.ok v' ∧ ((∃ s, v = .str s) → ∃ s, v' = .str s) ∧
      ((∃ s l, v = .list (s :: l)) → ∃ s l, v' = .list (s :: l)) := by
    intro a
    cases v with
    | str s =>
      obtain ⟨s', e⟩ := formatAttr_ok sg a s loc std h
      exact ⟨.str s', by simp only [e]; rfl, fun _ => ⟨s', rfl⟩, by rintro ⟨_, _, e⟩; cases e⟩
    | list l =>
      obtain ⟨l', e, hl⟩ := mapM_formatAttr_ok sg a loc std h l
      refine ⟨.list l', by simp only [e]; rfl, by (rintro ⟨_, e⟩; cases e), ?_⟩
      rintro ⟨s, l2, e2⟩
      injection e2 with e2
      rw [e2] at hl
      cases l' with
      | nil => cases hl
      | cons s' l' => exact ⟨s', l', rfl⟩
    | other n => exact ⟨.other n, rfl, by (rintro ⟨_, e⟩; cases e), by rintro ⟨_, _, e⟩; cases e⟩
  unfold formatItem
  cases ha : sgAttrOf k with
  | none => exact ⟨v, rfl, id, id⟩
  | some a =>
    cases a with
    | name => exact ⟨v, rfl, id, id⟩
    | standardName => cases v <;> exact key .standardName
    | longName => cases v <;> exact key .longName

theorem formatAttrs_ok (sg : SG) (loc : LocArg) (std : Bool) (h : LocAllowed sg loc) : ∀ attrs : Attrs, ∃ out, formatAttrs sg loc std attrs = .ok out ∧
    (TextAttrs attrs → TextAttrs out) ∧ (PatchAttrs attrs → PatchAttrs out) := by
  intro attrs
  induction attrs with
  | nil => exact ⟨[], rfl, id, id⟩
  | cons p rest ih =>
    obtain ⟨k, v⟩ := p
    obtain ⟨out, e, h1, h2⟩ := ih
    obtain ⟨v', e', h3, h4⟩ := formatItem_ok sg loc std h k v
    refine ⟨(k, v') :: out, by rw [formatAttrs, e', e]; rfl, ?_, ?_⟩
    · intro ht q hq hql
      rcases List.mem_cons.mp hq with e2 | e2
      · subst e2
        exact h3 (ht (k, v) List.mem_cons_self hql)
      · exact h1 (fun q hq => ht q (List.mem_cons_of_mem _ hq)) q e2 hql
    · intro ht q hq hql
      rcases List.mem_cons.mp hq with e2 | e2
      · subst e2
        exact (ht (k, v) List.mem_cons_self hql).imp h3 h4
      · exact h2 (fun q hq => ht q (List.mem_cons_of_mem _ hq)) q e2 hql

theorem patchItem_ok (sg : SG) (hl : sg.lowerValid) (loc : LocArg) (std replace : Bool) (h : LocAllowed sg loc) (attrs : Attrs) (ha : TextAttrs attrs)
    (k : Str) (v : AttrVal) (hv : k ∈ locatedKeys → (∃ s, v = .str s) ∨ ∃ s l, v = .list (s :: l)) :
    ∃ out, patchItem sg loc std replace attrs k v = some out ∧ TextAttrs out := by
  unfold patchItem
  split
  · exact ⟨attrs, rfl, ha⟩
  · cases hk : sgAttrOf k with
    | none =>
      refine ⟨_, rfl, ?_⟩
      intro p hp hpl
      rcases mem_setS k v attrs p hp with e | e
      · exfalso
        rw [e] at hpl
        unfold locatedKeys at hpl
        unfold sgAttrOf at hk
        simp only [List.mem_cons, List.not_mem_nil, or_false] at hpl
        rcases hpl with e | e | e <;> simp only [e, if_true] at hk
        · cases hk
        · split at hk <;> cases hk
        · split at hk
          · cases hk
          · split at hk <;> cases hk
      · exact ha p e hpl
    | some a =>
      have hloc := sgAttrOf_located k a hk
      have hc : ∃ v0 v1, patchChoice sg a (lookupS k attrs) v = some (v0, v1) := by
        cases hcur : lookupS k attrs with
        | none =>
          rcases hv hloc with ⟨s, e⟩ | ⟨s, l, e⟩ <;> subst e <;> exact ⟨_, _, rfl⟩
        | some w =>
          obtain ⟨c, e⟩ := ha (k, w) (mem_of_lookupS k w attrs hcur) hloc
          simp only at e
          subst e
          rcases hv hloc with ⟨s, e⟩ | ⟨s, l, e⟩ <;> subst e
          · exact ⟨_, _, rfl⟩
          · show ∃ v0 v1, (if (s :: l).any (fun x => matchAttrAny sg a c x) then some (some c, c) else some (some c, s)) = some (v0, v1)
            by_cases hm : (s :: l).any (fun x => matchAttrAny sg a c x) = true
            · rw [if_pos hm]; exact ⟨_, _, rfl⟩
            · rw [if_neg hm]; exact ⟨_, _, rfl⟩
      obtain ⟨v0, v1, e⟩ := hc
      obtain ⟨s, e2⟩ := mergeAttr_ok sg hl a v0 v1 loc std h
      refine ⟨setS k (.str s) attrs, by simp only [e, e2], ?_⟩
      intro p hp hpl
      rcases mem_setS k _ attrs p hp with e | e
      · exact ⟨s, by rw [e]⟩
      · exact ha p e hpl

theorem patchAttrs_ok (sg : SG) (hl : sg.lowerValid) (loc : LocArg) (std replace : Bool) (h : LocAllowed sg loc) (attrs patch : Attrs) (ha : TextAttrs attrs)
    (hp : PatchAttrs patch) : ∃ out, patchAttrs sg attrs patch loc std replace = some out ∧ TextAttrs out := by
  obtain ⟨at1, e, h1, -⟩ := formatAttrs_ok sg loc std h attrs
  unfold patchAttrs
  rw [e]
  simp only
  replace h1 := h1 ha
  clear e ha
  induction patch generalizing at1 with
  | nil => exact ⟨at1, rfl, h1⟩
  | cons p patch ih =>
    obtain ⟨at2, e, h2⟩ := patchItem_ok sg hl loc std replace h at1 h1 p.1 p.2 (hp p List.mem_cons_self)
    rw [List.foldlM_cons, e]
    exact ih (fun q hq => hp q (List.mem_cons_of_mem _ hq)) at2 h2

theorem sgFormat_ok (sg : SG) (hl : sg.lowerValid) (nm : Option Str) (attrs : Attrs) (loc : LocArg) (std : Bool) (name : Str) (patch : Attrs)
    (rename replace : Bool) (h : LocAllowed sg loc) (ha : TextAttrs attrs) (hp : PatchAttrs patch) :
    ∃ r, sgFormat sg nm attrs loc std (some name) patch rename replace = .ok r := by
  unfold sgFormat
  have hnew : ∃ new, (if patch = [] then (formatAttrs sg loc std attrs).toOption else patchAttrs sg attrs patch loc std replace) = some new := by
    split
    · obtain ⟨out, e, -⟩ := formatAttrs_ok sg loc std h attrs
      exact ⟨out, by rw [e]; rfl⟩
    · obtain ⟨out, e, -⟩ := patchAttrs_ok sg hl loc std replace h attrs patch ha hp
      exact ⟨out, e⟩
  obtain ⟨new, e⟩ := hnew
  simp only [e]
  split
  · obtain ⟨s, e2⟩ := mergeAttr_ok sg hl .name nm name loc true h
    simp only [e2]
    exact ⟨_, rfl⟩
  · exact ⟨_, rfl⟩

theorem specAttrs_patch (l : List (Str × Refs)) : PatchAttrs (specAttrs true l) := by
  induction l with
  | nil => intro p hp; cases hp
  | cons q l ih =>
    obtain ⟨k, r⟩ := q
    rw [specAttrs]
    cases hv : specValue true k r with
    | none => exact ih
    | some v =>
      intro p hp hpl
      rcases List.mem_cons.mp hp with e | e
      · subst e
        cases r with
        | none_ => cases hv
        | text s => injection hv with hv; exact .inl ⟨s, hv.symm⟩
        | list l =>
          cases l with
          | nil => cases hv
          | cons x l =>
            have hv : (if true = true ∧ (k = "standard_name".toList ∨ k = "long_name".toList) then some (AttrVal.list (x :: l)) else some (.str x)) = some v := hv
            by_cases hc : true = true ∧ (k = "standard_name".toList ∨ k = "long_name".toList)
            · rw [if_pos hc] at hv; injection hv with hv; exact .inr ⟨x, l, hv.symm⟩
            · rw [if_neg hc] at hv; injection hv with hv; exact .inl ⟨x, hv.symm⟩
      · exact ih p e hpl

theorem patchOf_ok (sg : SG) (spec : CfSpec) (aa : AttrsArg) (hd : ∀ d, aa = .dict d → PatchAttrs d) : ∃ patch, patchOf sg spec aa = .ok patch ∧ PatchAttrs patch := by
  cases aa with
  | no => exact ⟨[], rfl, fun p hp => by cases hp⟩
  | dict d => exact ⟨d, rfl, hd d rfl⟩
  | cf =>
    have e : patchOf sg spec .cf = formatAttrs sg .keep false (specAttrs true spec.attrs) := rfl
    obtain ⟨out, e2, -, h2⟩ := formatAttrs_ok sg .keep false (.inl rfl) (specAttrs true spec.attrs)
    exact ⟨out, by rw [e, e2], h2 (specAttrs_patch _)⟩

theorem formatWith_ok (sg : SG) (hl : sg.lowerValid) (o : FOpts) (rename : Bool) (n : Str) (spec : CfSpec) (nm : Option Str) (attrs : Attrs)
    (h : LocAllowed sg o.loc) (ha : TextAttrs attrs) (hd : ∀ d, o.attrs = .dict d → PatchAttrs d) :
    ∃ r m, formatWith sg o rename n spec nm attrs = .ok (r, m) := by
  obtain ⟨nn, e1⟩ := formatAttr_ok sg .name (if o.specialize then spec.names.headD n else n) .keep true (.inl rfl)
  have e1 : getCfName sg spec n o.specialize .keep = .ok nn := e1
  obtain ⟨patch, e2, hp⟩ := patchOf_ok sg spec o.attrs hd
  obtain ⟨r, e3⟩ := sgFormat_ok sg hl nm attrs o.loc o.standardize nn patch rename o.replace h ha hp
  obtain ⟨s, e4⟩ := mergeAttr_ok sg hl .name nm nn o.loc true h
  unfold formatWith
  simp only [e1, e2, e3, e4]
  split
  · exact ⟨_, _, rfl⟩
  · exact ⟨_, _, rfl⟩

theorem matchAny_lookup (sg : SG) (cat : CfCat) (loc : MLoc) (da : DObj) (n : Str) (h : matchAny sg cat loc da = .ok (some n)) : ∃ spec, lookupS n cat = some spec := by
  cases hs : lookupS n cat with
  | some spec => exact ⟨spec, rfl⟩
  | none =>
    exfalso
    unfold matchAny at h
    induction cat with
    | nil => cases h
    | cons p cat ih =>
      obtain ⟨k, spec⟩ := p
      rw [lookupS] at hs
      split at hs
      · cases hs
      · next hne =>
        rw [matchAnyIn] at h
        cases hm : matchCrits sg loc da (orderedCrits k spec) with
        | error e => rw [hm] at h; cases h
        | ok b =>
          rw [hm] at h
          cases b with
          | true =>
            simp only [Except.bind, if_true, Except.ok.injEq, Option.some.injEq] at h
            exact hne h.symm
          | false => exact ih h hs

theorem formatInPlace_ok (sg : SG) (hl : sg.lowerValid) (cat : CfCat) (o : FOpts) (nm : Option Str) (attrs : Attrs) (h : LocAllowed sg o.loc) (ha : TextAttrs attrs)
    (hd : ∀ d, o.attrs = .dict d → PatchAttrs d) (hm : ∃ u, usedName sg cat o nm attrs = .ok u) : ∃ r m, formatInPlace sg cat o nm attrs = .ok (r, m) := by
  obtain ⟨u, e⟩ := hm
  unfold formatInPlace
  rw [e]
  cases u with
  | none => exact ⟨_, _, rfl⟩
  | some p => exact formatWith_ok sg hl o false p.1 p.2 nm attrs h ha hd

theorem usedName_matched (sg : SG) (cat : CfCat) (o : FOpts) (nm : Option Str) (attrs : Attrs) (hn : o.name = none)
    (hm : ∃ r, matchAny sg cat .any (dobjOf nm attrs) = .ok r) : ∃ u, usedName sg cat o nm attrs = .ok u := by
  obtain ⟨r, e⟩ := hm
  unfold usedName
  rw [hn]
  simp only [e]
  cases r with
  | none => exact ⟨_, rfl⟩
  | some n =>
    obtain ⟨spec, e2⟩ := matchAny_lookup sg cat .any _ n e
    simp only [e2]
    exact ⟨_, rfl⟩

/-- the matching of this variable with the specifications does not raise (see C43 and C65) -/
def Matchable (sg : SG) (cat : CfCat) {α : Type} (p : Option Str × FVar α) : Prop := ∃ r, matchAny sg cat .any (dobjOf p.1 p.2.attrs) = .ok r

theorem formatVars_ok {α} (sg : SG) (hl : sg.lowerValid) (cat : CfCat) (loc : LocArg) (replace : Bool) (h : LocAllowed sg loc) :
    ∀ vars : List (Option Str × FVar α), (∀ p ∈ vars, TextAttrs p.2.attrs ∧ Matchable sg cat p) → ∃ vs m, formatVars sg cat loc replace vars = .ok (vs, m) := by
  intro vars
  induction vars with
  | nil => intro _; exact ⟨[], [], rfl⟩
  | cons p rest ih =>
    intro hv
    obtain ⟨k, v⟩ := p
    obtain ⟨vs, m, e⟩ := ih (fun q hq => hv q (List.mem_cons_of_mem _ hq))
    obtain ⟨h1, h2⟩ := hv (k, v) List.mem_cons_self
    obtain ⟨r, new, e2⟩ := formatInPlace_ok sg hl cat { loc := loc, replace := replace } k v.attrs h h1 (fun d e => by cases e) (usedName_matched sg cat _ k v.attrs rfl h2)
    rw [formatVars]
    simp only [e2, e]
    exact ⟨_, _, rfl⟩

theorem formatCoords_ok {α} (sg : SG) (hl : sg.lowerValid) (cat : CfCat) (loc : LocArg) (std replace : Bool) (h : LocAllowed sg loc) (names : List (Str × Str)) :
    ∀ coords : List (Option Str × FVar α), (∀ p ∈ coords, TextAttrs p.2.attrs ∧ ∃ u, usedName sg cat (coordOpts loc std replace names p.1) p.1 p.2.attrs = .ok u) →
      ∃ cs m, formatCoords sg cat loc std replace names coords = .ok (cs, m) := by
  intro coords
  induction coords with
  | nil => intro _; exact ⟨[], [], rfl⟩
  | cons p rest ih =>
    intro hv
    obtain ⟨k, v⟩ := p
    obtain ⟨cs, m, e⟩ := ih (fun q hq => hv q (List.mem_cons_of_mem _ hq))
    obtain ⟨h1, h2⟩ := hv (k, v) List.mem_cons_self
    obtain ⟨r, new, e2⟩ := formatInPlace_ok sg hl cat (coordOpts loc std replace names k) k v.attrs h h1 (fun d e => by cases e) h2
    unfold coordOpts at e2
    rw [formatCoords]
    simp only [e2, e]
    exact ⟨_, _, rfl⟩

/-- `f` gives the names that the variables of a dataset must have: that of the CF variable at the requested location, or the same name if nothing matches -/
def NamesVars {α} (sg : SG) (cat : CfCat) (loc : LocArg) (f : Option Str → Option Str) (p : Option Str × FVar α) : Prop :=
  (matchAny sg cat .any (dobjOf p.1 p.2.attrs) = .ok none → f p.1 = p.1) ∧
  ∀ n, matchAny sg cat .any (dobjOf p.1 p.2.attrs) = .ok (some n) → PlainName sg n → NamedBy sg n loc p.1 (f p.1)

/-- `f` gives the names that the coordinates get: that of the CF coordinate at the requested location, or `None` if nothing matches -/
def NamesCoords {α} (sg : SG) (cat : CfCat) (loc : LocArg) (f : Option Str → Option Str) (p : Option Str × FVar α) : Prop :=
  (matchAny sg cat .any (dobjOf p.1 p.2.attrs) = .ok none → f p.1 = none) ∧
  ∀ n, matchAny sg cat .any (dobjOf p.1 p.2.attrs) = .ok (some n) → PlainName sg n → NamedBy sg n loc p.1 (f p.1)

theorem coords_used {α} (sg : SG) (cat : CfCat) (loc : LocArg) (std replace : Bool) (p : Option Str × FVar α) (h : Matchable sg cat p) :
    ∃ u, usedName sg cat (coordOpts loc std replace [] p.1) p.1 p.2.attrs = .ok u := by
  refine usedName_matched sg cat _ p.1 p.2.attrs ?_ h
  unfold coordOpts
  cases p.1 <;> rfl

/-- **C109, exact.** There is one renaming `f` of the names of a dataset, given by the rules of formatting, and formatting succeeds if and only if `f` does not give the
same name to two of its variables and coordinates. So nothing else makes it fail: neither missing nor located attributes, nor dimensions, nor data.
(The location is allowed, the declared ones are in lower case, attributes that carry a location are texts, matching does not raise.) -/
theorem C109_exact_partial {α} (sg : SG) (hreg : sg.regular) (hl : sg.lowerValid) (vcat ccat : CfCat) (loc : LocArg) (hloc : LocAllowed sg loc) (replace : Bool)
    (ds : FDs α) (hk : ∀ p ∈ ds.vars ++ ds.coords, p.1 ≠ none) (hn : ((ds.vars ++ ds.coords).map (·.1)).Nodup)
    (ht : ∀ p ∈ ds.vars ++ ds.coords, TextAttrs p.2.attrs) (hv : ∀ p ∈ ds.vars, Matchable sg vcat p) (hc : ∀ p ∈ ds.coords, Matchable sg ccat p) :
    ∃ f : Option Str → Option Str, (∀ p ∈ ds.vars, NamesVars sg vcat loc f p) ∧ (∀ p ∈ ds.coords, NamesCoords sg ccat loc f p) ∧
      ((∃ ds', formatDataset sg vcat ccat loc true replace ds = .ok ds') ↔ (((ds.vars ++ ds.coords).map (·.1)).map f).Nodup) := by
  obtain ⟨vs, m1, e1⟩ := formatVars_ok sg hl vcat loc replace hloc ds.vars (fun p hp => ⟨ht p (List.mem_append_left _ hp), hv p hp⟩)
  obtain ⟨cs, m2, e2⟩ := formatCoords_ok sg hl ccat loc true replace hloc [] ds.coords
    (fun p hp => ⟨ht p (List.mem_append_right _ hp), coords_used sg ccat loc true replace p (hc p hp)⟩)
  obtain ⟨a1, a2, a3, a4⟩ := formatVars_index sg vcat loc replace _ _ _ e1
  obtain ⟨b1, b2⟩ := formatCoords_index sg ccat loc true replace [] _ _ _ e2
  obtain ⟨-, b3, b4⟩ := formatCoords_spec sg ccat loc true replace [] _ _ _ e2
  have hn' := hn
  rw [List.map_append, List.nodup_append] at hn'
  obtain ⟨hn1, hn2, hn3⟩ := hn'
  have hvs : vs.map (·.1) = ds.vars.map (·.1) := by
    apply List.ext_getElem?
    intro i
    rw [List.getElem?_map, List.getElem?_map]
    cases hi : ds.vars[i]? with
    | none =>
      rw [List.getElem?_eq_none_iff] at hi
      rw [List.getElem?_eq_none_iff.mpr (by omega)]
    | some p =>
      obtain ⟨k, v⟩ := p
      obtain ⟨r, new, -, j⟩ := a2 i k v hi
      rw [j]; rfl
  have hcs : cs.map (·.1) = ds.coords.map (·.1) := by
    apply List.ext_getElem?
    intro i
    rw [List.getElem?_map, List.getElem?_map]
    cases hi : ds.coords[i]? with
    | none =>
      rw [List.getElem?_eq_none_iff] at hi
      rw [List.getElem?_eq_none_iff.mpr (by omega)]
    | some p =>
      obtain ⟨k, v⟩ := p
      obtain ⟨r, new, -, j⟩ := b2 i k v hi
      rw [j]; rfl
  refine ⟨newKey (m1 ++ m2), ?_, ?_, ?_⟩
  · intro p hp
    obtain ⟨k, v⟩ := p
    cases k with
    | none => exact absurd rfl (hk _ (List.mem_append_left _ hp))
    | some k =>
      have hl2 : lookupS k m2 = none := b3 k (fun hh => hn3 _ (List.mem_map_of_mem (f := (·.1)) hp) _ hh rfl)
      obtain ⟨r, new, j1, j3⟩ := a4 hn1 k v hp
      constructor
      · intro hu
        rw [formatInPlace_unmatched rfl hu] at j1
        simp only [Except.ok.injEq, Prod.mk.injEq] at j1
        apply newKey_other
        rw [lookupS_append, j3, hl2, ← j1.2]; rfl
      · intro n hm hp
        obtain ⟨spec, hs⟩ := matchAny_lookup sg vcat .any _ n hm
        rw [formatInPlace_formats (n := n) (spec := spec) ⟨hs, Or.inr ⟨rfl, hm⟩⟩] at j1
        obtain ⟨g1, g2, -, -⟩ := formatWith_named (o := varOpts loc replace) hreg hp rfl j1
        show NamedBy sg n loc (some k) (newKey (m1 ++ m2) (some k))
        rw [newKey_some (new := new) (by rw [lookupS_append, j3, if_pos g2]; rfl)]
        exact g1
  · intro p hp
    obtain ⟨k, v⟩ := p
    cases k with
    | none => exact absurd rfl (hk _ (List.mem_append_right _ hp))
    | some k =>
      have hl1 : lookupS k m1 = none := a3 k (fun hh => hn3 _ hh _ (List.mem_map_of_mem (f := (·.1)) hp) rfl)
      obtain ⟨r, new, j1, j3, -⟩ := b4 hn2 k v hp
      have hkey : newKey (m1 ++ m2) (some k) = new := newKey_some (by rw [lookupS_append, hl1, j3]; rfl)
      constructor
      · intro hu
        rw [formatInPlace_unmatched rfl hu] at j1
        simp only [Except.ok.injEq, Prod.mk.injEq] at j1
        show newKey (m1 ++ m2) (some k) = none
        rw [hkey, ← j1.2]
      · intro n hm hp
        obtain ⟨spec, hs⟩ := matchAny_lookup sg ccat .any _ n hm
        rw [formatInPlace_formats (n := n) (spec := spec) ⟨hs, Or.inr ⟨rfl, hm⟩⟩] at j1
        obtain ⟨g1, g2, -, -⟩ := formatWith_named (o := coordOpts loc true replace [] (some k)) hreg hp rfl j1
        show NamedBy sg n loc (some k) (newKey (m1 ++ m2) (some k))
        rw [hkey]
        exact g1
  · have hnames : ∀ m : List (Str × Option Str), List.map Prod.fst (vs.map (fun p => (newKey m p.1, renameVar m p.2)) ++ cs.map (fun p => (newKey m p.1, renameVar m p.2))) =
        ((ds.vars ++ ds.coords).map (·.1)).map (newKey m) := by
      intro m
      rw [List.map_append, List.map_append, List.map_append, ← hvs, ← hcs, List.map_map, List.map_map, List.map_map, List.map_map]
      rfl
    unfold formatDataset
    simp only [e1, e2, true_and]
    by_cases hm : m1 ++ m2 = []
    · rw [if_neg (by simpa using hm), hm]
      constructor
      · intro _
        have : ((ds.vars ++ ds.coords).map (·.1)).map (newKey []) = (ds.vars ++ ds.coords).map (·.1) := by
          conv_rhs => rw [← List.map_id ((ds.vars ++ ds.coords).map (·.1))]
          exact List.map_congr_left (fun x _ => newKey_nil x)
        rw [this]
        exact hn
      · intro _
        exact ⟨_, rfl⟩
    · rw [if_pos hm]
      unfold renameDs
      simp only [hnames]
      constructor
      · rintro ⟨ds', h⟩
        by_contra hno
        rw [if_neg hno] at h
        cases h
      · intro h
        rw [if_pos h]
        exact ⟨_, rfl⟩

/-- **C109, what holds.** A dataset whose variables and coordinates match distinct CF names, and have no location in their names, can be formatted, as can the variables
that match nothing when their names are not taken. -/
theorem C109_distinct_partial {α} (sg : SG) (hreg : sg.regular) (hl : sg.lowerValid) (vcat ccat : CfCat) (replace : Bool) (ds : FDs α) (old : List Str)
    (hk : (ds.vars ++ ds.coords).map (·.1) = old.map some) (hn : old.Nodup) (ht : ∀ p ∈ ds.vars ++ ds.coords, TextAttrs p.2.attrs)
    (hnl : ∀ k ∈ old, (parseAttr sg .name k).2 = none) (g : Str → Str) (hg : (old.map g).Nodup)
    (hv : ∀ k v, (some k, v) ∈ ds.vars → (matchAny sg vcat .any (dobjOf (some k) v.attrs) = .ok (some (g k)) ∧ PlainName sg (g k)) ∨
      (matchAny sg vcat .any (dobjOf (some k) v.attrs) = .ok none ∧ g k = k))
    (hc : ∀ k v, (some k, v) ∈ ds.coords → matchAny sg ccat .any (dobjOf (some k) v.attrs) = .ok (some (g k)) ∧ PlainName sg (g k)) :
    ∃ ds', formatDataset sg vcat ccat .keep true replace ds = .ok ds' := by
  have hsome : ∀ p ∈ ds.vars ++ ds.coords, ∃ k ∈ old, p.1 = some k := by
    intro p hp
    have := List.mem_map_of_mem (f := (·.1)) hp
    rw [hk, List.mem_map] at this
    obtain ⟨k, h1, h2⟩ := this
    exact ⟨k, h1, h2.symm⟩
  obtain ⟨f, f1, f2, f3⟩ := C109_exact_partial sg hreg hl vcat ccat .keep (.inl rfl) replace ds
    (fun p hp e => by obtain ⟨k, _, e2⟩ := hsome p hp; rw [e] at e2; cases e2)
    (by rw [hk]; exact hn.map (fun _ _ e => Option.some.inj e)) ht
    (fun p hp => by
      obtain ⟨k, _, e⟩ := hsome p (List.mem_append_left _ hp)
      obtain ⟨k', v⟩ := p
      simp only at e
      subst e
      rcases hv k v hp with h | h
      · exact ⟨_, h.1⟩
      · exact ⟨_, h.1⟩)
    (fun p hp => by
      obtain ⟨k, _, e⟩ := hsome p (List.mem_append_right _ hp)
      obtain ⟨k', v⟩ := p
      simp only at e
      subst e
      exact ⟨_, (hc k v hp).1⟩)
  rw [f3]
  have hfg : ∀ k ∈ old, f (some k) = some (g k) := by
    intro k hko
    have hm : some k ∈ (ds.vars ++ ds.coords).map (·.1) := by rw [hk]; exact List.mem_map_of_mem hko
    obtain ⟨p, hp, e⟩ := List.mem_map.mp hm
    obtain ⟨k', v⟩ := p
    simp only at e
    subst e
    have hol : ∀ o, some k = some o → (parseAttr sg .name o).2 = none := by
      intro o e
      injection e with e
      rw [← e]
      exact hnl k hko
    rcases List.mem_append.mp hp with hp | hp
    · rcases hv k v hp with h | h
      · exact ((f1 _ hp).2 (g k) h.1 h.2).2.1 rfl hol
      · rw [h.2]; exact (f1 _ hp).1 h.1
    · exact ((f2 _ hp).2 (g k) (hc k v hp).1 (hc k v hp).2).2.1 rfl hol
  rw [hk, List.map_map]
  have : List.map (f ∘ some) old = (old.map g).map some := by
    rw [List.map_map]
    exact List.map_congr_left (fun k hko => hfg k hko)
  rw [this]
  exact hg.map (fun _ _ e => Option.some.inj e)

/-- **C142 (arrays).** `format_dataarray` of an array that matches a CF name (or with a given CF name) always succeeds, whatever its attributes, dimensions and data,
and gives the expected name, but for one case: the array is its own dimension and another of its coordinates already has the new name.
(The location is allowed, the declared ones are in lower case, attributes that carry a location are texts.) -/
theorem C142_array_partial {α} (sg : SG) (hreg : sg.regular) (hl : sg.lowerValid) (cat : CfCat) (o : FOpts) (hloc : LocAllowed sg o.loc) (a : FArr α)
    (ha : TextAttrs a.var.attrs) (hd : ∀ d, o.attrs = .dict d → PatchAttrs d) (hc : (a.coords.map (·.1)).Nodup) (n m : Str) (spec : CfSpec)
    (hf : FormatsAs sg cat o a.name a.var.attrs n spec) (ht : TargetName spec n o.specialize m) (hp : PlainName sg m) :
    ∃ new, NamedBy sg m o.loc a.name new ∧
      ((∃ b, formatArr sg cat o a = .ok b ∧ b.name = new) ∨
       (∃ old, a.name = some old ∧ o.renameDim = true ∧ a.var.dims = [some old] ∧ (∃ p ∈ a.coords, p.1 ≠ some old ∧ p.1 = new) ∧
        formatArr sg cat o a = .error .valueError)) := by
  obtain ⟨r, w, e⟩ := formatWith_ok sg hl o true n spec a.name a.var.attrs hloc ha hd
  have hname : NamedBy sg m o.loc a.name r.1 := by
    obtain ⟨nn, patch, h1, h2, h3, -⟩ := formatWith_inv e
    have hm : (if o.specialize then spec.names.headD n else n) = m := by
      cases ho : o.specialize with
      | false => simp [ht.1 ho]
      | true =>
        cases hn : spec.names with
        | nil => simp [ht.2.1 ho hn]
        | cons x l => simp [ht.2.2 x l ho hn]
    have : getCfName sg spec n o.specialize .keep = .ok m := by
      unfold getCfName
      rw [hm]
      exact formatAttr_plain_keep hp
    rw [this] at h1
    injection h1 with h1
    subst h1
    exact namedBy_merge sg hreg m hp _ _ _ (by simpa using sgFormat_name sg _ _ _ _ _ _ _ _ _ h3)
  refine ⟨r.1, hname, ?_⟩
  unfold formatArr
  rw [usedName_of hf]
  simp only [e]
  cases hn : a.name with
  | none => exact .inl ⟨_, rfl, rfl⟩
  | some old =>
    simp only
    by_cases hcond : o.renameDim = true ∧ a.var.dims = [some old]
    · rw [if_pos hcond]
      unfold renameArr
      simp only
      split
      · exact .inl ⟨_, rfl, rfl⟩
      · next hno =>
        refine .inr ⟨old, rfl, hcond.1, hcond.2, ?_, rfl⟩
        by_contra hall
        push Not at hall
        apply hno
        rw [List.map_map]
        have hcomp : ∀ p ∈ a.coords, (Prod.fst ∘ fun p : Option Str × FVar α => (newKey [(old, r.1)] p.1, renameVar [(old, r.1)] p.2)) p =
            if p.1 = some old then r.1 else p.1 := by
          intro p _
          show newKey [(old, r.1)] p.1 = _
          cases hp1 : p.1 with
          | none => simp [newKey]
          | some x =>
            by_cases ex : x = old
            · subst ex; simp [newKey, lookupS]
            · simp [newKey, lookupS, ex]
        rw [List.map_congr_left hcomp]
        have hmm : (a.coords.map fun p => if p.1 = some old then r.1 else p.1) = (a.coords.map (·.1)).map (fun x => if x = some old then r.1 else x) := by
          rw [List.map_map]; rfl
        rw [hmm]
        refine List.Nodup.map_on ?_ hc
        intro x hx y hy hxy
        obtain ⟨p, hp, rfl⟩ := List.mem_map.mp hx
        obtain ⟨q, hq, rfl⟩ := List.mem_map.mp hy
        by_cases h1 : p.1 = some old
        · by_cases h2 : q.1 = some old
          · rw [h1, h2]
          · rw [if_pos h1, if_neg h2] at hxy
            exact absurd hxy.symm (hall q hq h2)
        · by_cases h2 : q.1 = some old
          · rw [if_neg h1, if_pos h2] at hxy
            exact absurd hxy (hall p hp h1)
          · rw [if_neg h1, if_neg h2] at hxy
            exact hxy
    · rw [if_neg hcond]
      exact .inl ⟨_, rfl, rfl⟩

/-- **C142 (arrays with coordinates).** `format_data_var` succeeds if and only if the new names of the coordinates are distinct. -/
theorem C142_data_var_partial {α} (sg : SG) (hreg : sg.regular) (hl : sg.lowerValid) (vcat ccat : CfCat) (o : FOpts) (hloc : LocAllowed sg o.loc) (a : FArr α)
    (ha : TextAttrs a.var.attrs) (hd : ∀ d, o.attrs = .dict d → PatchAttrs d) 
    (hu : (∃ n spec, FormatsAs sg vcat o a.name a.var.attrs n spec) ∨ (o.name = none ∧ matchAny sg vcat .any (dobjOf a.name a.var.attrs) = .ok none))
    (hk : ∀ p ∈ a.coords, p.1 ≠ none) (hn : (a.coords.map (·.1)).Nodup) (hc : ∀ p ∈ a.coords, TextAttrs p.2.attrs ∧ Matchable sg ccat p) :
    ∃ f : Option Str → Option Str, (∀ p ∈ a.coords, NamesCoords sg ccat o.loc f p) ∧
      ((∃ b, formatDataVar sg vcat ccat o true [] a = .ok b) ↔ ((a.coords.map (·.1)).map f).Nodup) := by
  have hu : ∃ u, usedName sg vcat o a.name a.var.attrs = .ok u := by
    rcases hu with ⟨n, spec, h⟩ | ⟨h1, h2⟩
    · exact ⟨_, usedName_of h⟩
    · exact usedName_matched sg vcat o _ _ h1 ⟨_, h2⟩
  obtain ⟨r, new, e1⟩ := formatInPlace_ok sg hl vcat o a.name a.var.attrs hloc ha hd hu
  obtain ⟨cs, m, e2⟩ := formatCoords_ok sg hl ccat o.loc o.standardize o.replace hloc [] a.coords
    (fun p hp => ⟨(hc p hp).1, coords_used sg ccat o.loc o.standardize o.replace p (hc p hp).2⟩)
  obtain ⟨b1, b2⟩ := formatCoords_index sg ccat o.loc o.standardize o.replace [] _ _ _ e2
  obtain ⟨-, b3, b4⟩ := formatCoords_spec sg ccat o.loc o.standardize o.replace [] _ _ _ e2
  have hcs : cs.map (·.1) = a.coords.map (·.1) := by
    apply List.ext_getElem?
    intro i
    rw [List.getElem?_map, List.getElem?_map]
    cases hi : a.coords[i]? with
    | none =>
      rw [List.getElem?_eq_none_iff] at hi
      rw [List.getElem?_eq_none_iff.mpr (by omega)]
    | some p =>
      obtain ⟨k, v⟩ := p
      obtain ⟨r, new, -, j⟩ := b2 i k v hi
      rw [j]; rfl
  refine ⟨newKey m, ?_, ?_⟩
  · intro p hp
    obtain ⟨k, v⟩ := p
    cases k with
    | none => exact absurd rfl (hk _ hp)
    | some k =>
      obtain ⟨r, new, j1, j3, -⟩ := b4 hn k v hp
      have hkey : newKey m (some k) = new := newKey_some j3
      constructor
      · intro hu
        rw [formatInPlace_unmatched rfl hu] at j1
        simp only [Except.ok.injEq, Prod.mk.injEq] at j1
        show newKey m (some k) = none
        rw [hkey, ← j1.2]
      · intro n hm hp
        obtain ⟨spec, hs⟩ := matchAny_lookup sg ccat .any _ n hm
        rw [formatInPlace_formats (n := n) (spec := spec) ⟨hs, Or.inr ⟨rfl, hm⟩⟩] at j1
        obtain ⟨g1, g2, -, -⟩ := formatWith_named (o := coordOpts o.loc o.standardize o.replace [] (some k)) hreg hp rfl j1
        show NamedBy sg n o.loc (some k) (newKey m (some k))
        rw [hkey]
        exact g1
  · have hnames : ∀ m : List (Str × Option Str), List.map Prod.fst (cs.map (fun p => (newKey m p.1, renameVar m p.2))) = (a.coords.map (·.1)).map (newKey m) := by
      intro m
      rw [← hcs, List.map_map, List.map_map]
      rfl
    unfold formatDataVar formatVarCore
    simp only [e1, e2, if_true]
    by_cases hm : m = []
    · rw [if_pos hm, hm]
      constructor
      · intro _
        have : (a.coords.map (·.1)).map (newKey []) = a.coords.map (·.1) := by
          conv_rhs => rw [← List.map_id (a.coords.map (·.1))]
          exact List.map_congr_left (fun x _ => newKey_nil x)
        rw [this]
        exact hn
      · intro _
        exact ⟨_, rfl⟩
    · rw [if_neg hm]
      unfold renameArr
      simp only [hnames]
      constructor
      · rintro ⟨ds', h⟩
        by_contra hno
        rw [if_neg hno] at h
        cases h
      · intro h
        rw [if_pos h]
        exact ⟨_, rfl⟩

/-- **C142, a location that is not declared** is refused for every array that matches. -/
theorem C142_invalid_location {α} (sg : SG) (cat : CfCat) (o : FOpts) (l : Str) (ho : o.loc = .str l) (hl0 : l ≠ []) (hany : l ≠ "any".toList) (hv : sg.valid ≠ [])
    (hl : lower l ∉ sg.valid) (a : FArr α) (n : Str) (spec : CfSpec) (hf : FormatsAs sg cat o a.name a.var.attrs n spec) : ∃ e, formatArr sg cat o a = .error e := by
  cases h : formatArr sg cat o a with
  | error e => exact ⟨e, rfl⟩
  | ok b =>
    exfalso
    obtain ⟨r, hw, -⟩ := formatArr_inv hf h
    obtain ⟨nn, patch, h1, h2, h3, -⟩ := formatWith_inv hw
    have h4 := sgFormat_name sg _ _ _ _ _ _ _ _ _ h3
    rw [if_pos (.inl rfl), ho] at h4
    have hbad : ∀ x, formatAttr sg .name x (.str l) true = .error .invalidLocation := by
      intro x
      unfold formatAttr
      simp only [hl0, if_false, hv, hl, ne_eq, not_false_eq_true, and_self, if_true]
    cases hn : a.name with
    | none => rw [hn, mergeAttr_none_left, hbad] at h4; cases h4
    | some old => rw [hn, C42_merge_location sg .name old nn l true hany, hbad] at h4; cases h4

/-- **C142 is violated** by every locator that declares a location with an upper case letter: an array at this location, whatever its other attributes, cannot be formatted, even
if its location is kept: the location is read in lower case, and is then not found in the list. -/
theorem C142_upper_case_violated {α} (sg : SG) (cat : CfCat) (o : FOpts) (ho : o.loc = .keep) (a : FArr α) (old l : Str) (hold : a.name = some old)
    (hl : (parseAttr sg .name old).2 = some l) (hl0 : l ≠ []) (hv : sg.valid ≠ []) (hlv : l ∉ sg.valid) (n m : Str) (spec : CfSpec)
    (hf : FormatsAs sg cat o a.name a.var.attrs n spec) (ht : TargetName spec n o.specialize m) (hp : PlainName sg m) : ∃ e, formatArr sg cat o a = .error e := by
  cases h : formatArr sg cat o a with
  | error e => exact ⟨e, rfl⟩
  | ok b =>
    exfalso
    obtain ⟨r, hw, -⟩ := formatArr_inv hf h
    obtain ⟨nn, patch, h1, h2, h3, -⟩ := formatWith_inv hw
    have hm : (if o.specialize then spec.names.headD n else n) = m := by
      cases ho : o.specialize with
      | false => simp [ht.1 ho]
      | true =>
        cases hn : spec.names with
        | nil => simp [ht.2.1 ho hn]
        | cons x l => simp [ht.2.2 x l ho hn]
    have : getCfName sg spec n o.specialize .keep = .ok m := by
      unfold getCfName
      rw [hm]
      exact formatAttr_plain_keep hp
    rw [this] at h1
    injection h1 with h1
    subst h1
    have h4 := sgFormat_name sg _ _ _ _ _ _ _ _ _ h3
    rw [if_pos (.inl rfl), ho, hold] at h4
    obtain ⟨w, hw, ew⟩ := (C40_only_valid sg .name old (parseAttr sg .name old).1 l (by rw [← hl])).1 hv
    have hlow : lower l ∉ sg.valid := by rw [ew, lower_lower, ← ew]; exact hlv
    unfold mergeAttr at h4
    simp only [true_or, if_true, hp.noLoc, hl] at h4
    unfold formatAttr at h4
    simp only [hl0, if_false, hv, hlow, ne_eq, not_false_eq_true, and_self, if_true] at h4
    cases h4

/-! ## the hypotheses are met -/

/-- arrays and datasets that can be formatted -/
example : SG.lowerValid {} ∧ LocAllowed {} .keep ∧ LocAllowed {} (.str "u".toList) ∧ TextAttrs exTemp.var.attrs ∧ (∀ p ∈ exTemp.coords, TextAttrs p.2.attrs) ∧
    (exTemp.coords.map (·.1)).Nodup ∧ TargetName exTempSpec "temp".toList false "temp".toList := by
  refine ⟨fun l hl => absurd hl (by simp), .inl rfl, .inr (.inr (.inr ⟨_, rfl, .inr (.inl rfl)⟩)), ?_, ?_, by decide, ⟨fun _ => rfl, fun _ _ => rfl, fun _ _ h _ => absurd h (by decide)⟩⟩
  · intro p hp hl
    simp only [exTemp, List.mem_cons, List.not_mem_nil, or_false] at hp
    rcases hp with rfl | rfl
    · exact ⟨_, rfl⟩
    · exact absurd hl (by decide)
  · intro p hp q hq hl
    simp only [exTemp, List.mem_cons, List.not_mem_nil, or_false] at hp
    rcases hp with rfl | rfl
    · cases hq
    · simp only [List.mem_cons, List.not_mem_nil, or_false] at hq
      subst hq
      exact ⟨_, rfl⟩

/-- a conflict between the array and one of its coordinates; a locator with a location in upper case -/
example : formatArr (α := Nat) {} defaultCoords {} ⟨some "longitude".toList, ⟨[some "longitude".toList], [], 0⟩,
      [(some "longitude".toList, ⟨[some "longitude".toList], [], 0⟩), (some "lon".toList, ⟨[some "longitude".toList], [], 0⟩)]⟩ matches .error .valueError ∧
    formatArr (α := Nat) { valid := ["T".toList] } exVars {} ⟨some "temp_t".toList, ⟨[], [], 0⟩, []⟩ matches .error (.name .invalidLocation) ∧
    (parseAttr { valid := ["T".toList] } .name "temp_t".toList).2 = some "t".toList := by
  refine ⟨?_, ?_, ?_⟩ <;> decide +kernel

end Xoa
