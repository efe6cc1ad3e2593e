import Verif.CfFormat
import Verif.SGLocPatchProps
import Verif.CfInheritLemmas

/-! # Formatting arrays and datasets (C100-C107) -/

namespace Xoa

/-! ## attributes -/

theorem formatAttrs_keys (sg : SG) (loc : LocArg) (std : Bool) :
    ∀ (attrs out : Attrs), formatAttrs sg loc std attrs = .ok out → out.map (·.1) = attrs.map (·.1) := by
  intro attrs
  induction attrs with
  | nil => intro out h; simp only [formatAttrs, Except.ok.injEq] at h; subst h; rfl
  | cons p rest ih =>
    intro out h
    obtain ⟨k', v'⟩ := p
    simp only [formatAttrs] at h
    cases hi : formatItem sg loc std k' v' with
    | error e => rw [hi] at h; exact absurd h (by simp [bind, Except.bind])
    | ok w =>
      rw [hi] at h
      cases hr : formatAttrs sg loc std rest with
      | error e => rw [hr] at h; exact absurd h (by simp [bind, Except.bind])
      | ok rest' =>
        rw [hr] at h
        simp only [bind, Except.bind, pure, Except.pure, Except.ok.injEq] at h
        subst h
        simp [ih rest' hr]

theorem patchItem_nodup (sg : SG) (loc : LocArg) (std replace : Bool) (attrs out : Attrs) (k : Str) (v : AttrVal)
    (hn : (attrs.map (·.1)).Nodup) (h : patchItem sg loc std replace attrs k v = some out) : (out.map (·.1)).Nodup := by
  unfold patchItem at h
  split at h
  · injection h with h; rw [← h]; exact hn
  · split at h
    · injection h with h; rw [← h]; exact setS_nodup _ _ _ hn
    · split at h
      · exact absurd h (by simp)
      · split at h
        · injection h with h; rw [← h]; exact setS_nodup _ _ _ hn
        · injection h with h; rw [← h]; exact hn
        · exact absurd h (by simp)

theorem patchFold_nodup (sg : SG) (loc : LocArg) (std replace : Bool) :
    ∀ (patch attrs out : Attrs), (attrs.map (·.1)).Nodup →
      patch.foldlM (fun at_ p => patchItem sg loc std replace at_ p.1 p.2) attrs = some out → (out.map (·.1)).Nodup := by
  intro patch
  induction patch with
  | nil => intro attrs out hn h; simp at h; rw [← h]; exact hn
  | cons p patch ih =>
    intro attrs out hn h
    rw [List.foldlM_cons] at h
    cases hi : patchItem sg loc std replace attrs p.1 p.2 with
    | none => rw [hi] at h; exact absurd h (by simp)
    | some a1 =>
      rw [hi] at h
      exact ih a1 out (patchItem_nodup _ _ _ _ _ _ _ _ hn hi) h

theorem patchAttrs_nodup (sg : SG) (attrs patch out : Attrs) (loc : LocArg) (std replace : Bool) (hn : (attrs.map (·.1)).Nodup)
    (h : patchAttrs sg attrs patch loc std replace = some out) : (out.map (·.1)).Nodup := by
  obtain ⟨a', hf, hfold⟩ := patchAttrs_split sg attrs patch out loc std replace h
  exact patchFold_nodup _ _ _ _ _ _ _ (by rw [formatAttrs_keys _ _ _ _ _ hf]; exact hn) hfold

/-- the attributes of the formatted array are those of the patched dictionary -/
theorem sgFormat_attrs (sg : SG) (nm : Option Str) (attrs : Attrs) (loc : LocArg) (std : Bool) (name : Option Str) (patch : Attrs)
    (rename replace : Bool) (r : Option Str × Attrs) (hn : (attrs.map (·.1)).Nodup) (hp : (patch.map (·.1)).Nodup)
    (h : sgFormat sg nm attrs loc std name patch rename replace = .ok r) :
    ∃ new, patchAttrs sg attrs patch loc std replace = some new ∧ (∀ k, lookupS k r.2 = lookupS k new) ∧
      (if rename = true ∨ nm = none then mergeAttr sg .name nm name loc true = .ok r.1 else r.1 = nm) := by
  unfold sgFormat at h
  have hpe : (if patch = [] then (formatAttrs sg loc std attrs).toOption else patchAttrs sg attrs patch loc std replace) =
      patchAttrs sg attrs patch loc std replace := by
    by_cases e : patch = []
    · rw [if_pos e, e]
      unfold patchAttrs
      cases formatAttrs sg loc std attrs <;> simp [Except.toOption]
    · rw [if_neg e]
  rw [hpe] at h
  cases hnew : patchAttrs sg attrs patch loc std replace with
  | none => rw [hnew] at h; exact absurd h (by simp)
  | some new =>
    rw [hnew] at h
    simp only at h
    have hlook : ∀ k, lookupS k (updateS attrs new) = lookupS k new := by
      intro k
      rw [lookupS_updateS k new attrs (patchAttrs_nodup sg attrs patch new loc std replace hn hnew)]
      cases hk : lookupS k new with
      | some v => rfl
      | none =>
        have := (C42_no_loss sg attrs patch new loc std replace hp hnew k).mpr.mt (by simp [hk])
        push Not at this
        simpa using this.1
    refine ⟨new, rfl, ?_⟩
    by_cases hc : rename = true ∨ nm = none
    · rw [if_pos hc] at h ⊢
      cases hm : mergeAttr sg .name nm name loc true with
      | error e => rw [hm] at h; exact absurd h (by simp)
      | ok nm' =>
        rw [hm] at h
        simp only [Except.ok.injEq] at h
        subst h
        exact ⟨hlook, rfl⟩
    · rw [if_neg hc] at h ⊢
      simp only [Except.ok.injEq] at h
      subst h
      exact ⟨hlook, rfl⟩

theorem sgFormat_name (sg : SG) (nm : Option Str) (attrs : Attrs) (loc : LocArg) (std : Bool) (name : Option Str) (patch : Attrs)
    (rename replace : Bool) (r : Option Str × Attrs) (h : sgFormat sg nm attrs loc std name patch rename replace = .ok r) :
    if rename = true ∨ nm = none then mergeAttr sg .name nm name loc true = .ok r.1 else r.1 = nm := by
  unfold sgFormat at h
  dsimp only at h
  generalize (if patch = [] then (formatAttrs sg loc std attrs).toOption else patchAttrs sg attrs patch loc std replace) = new at h
  cases new with
  | none => exact absurd h (by simp)
  | some new =>
    simp only at h
    by_cases hc : rename = true ∨ nm = none
    · rw [if_pos hc] at h ⊢
      cases hm : mergeAttr sg .name nm name loc true with
      | error e => rw [hm] at h; exact absurd h (by simp)
      | ok nm' =>
        rw [hm] at h
        simp only [Except.ok.injEq] at h
        subst h
        rfl
    · rw [if_neg hc] at h ⊢
      simp only [Except.ok.injEq] at h
      subst h
      rfl

/-- a missing attribute is added from the patch: its value, or the first one of a list, at the location -/
theorem patchAttrs_missing (sg : SG) (attrs patch out : Attrs) (loc : LocArg) (std replace : Bool)
    (hn : (patch.map (·.1)).Nodup) (h : patchAttrs sg attrs patch loc std replace = some out) (k : Str) (v : AttrVal)
    (hk : lookupS k attrs = none) (hv : lookupS k patch = some v) :
    (sgAttrOf k = none → lookupS k out = some v) ∧
    (∀ a x, sgAttrOf k = some a → (v = .str x ∨ ∃ l, v = .list (x :: l)) →
      ∃ s, formatAttr sg a x loc std = .ok s ∧ lookupS k out = some (.str s)) := by
  obtain ⟨a', hf, hfold⟩ := patchAttrs_split sg attrs patch out loc std replace h
  obtain ⟨f1, _⟩ := formatAttrs_lookup sg loc std k attrs a' hf
  obtain ⟨b0, b1, h1, h2, h3⟩ := fold_item sg loc std replace k v patch a' out hn (mem_of_lookupS k v patch hv) hfold
  rw [f1 hk] at h1
  unfold patchItem at h2
  rw [h1] at h2
  simp only [Option.isSome_none, Bool.false_and, Bool.false_eq_true, if_false] at h2
  constructor
  · intro hs
    rw [hs] at h2
    simp only [Option.some.injEq] at h2
    rw [h3, ← h2, lookupS_setS]
    simp
  · intro a x hs hx
    rw [hs] at h2
    have hc : patchChoice sg a none v = some (none, x) := by
      rcases hx with e | ⟨l, e⟩ <;> subst e <;> rfl
    simp only [hc] at h2
    have hm : mergeAttr sg a none (some x) loc std = (formatAttr sg a x loc std).map some := rfl
    rw [hm] at h2
    cases hfa : formatAttr sg a x loc std with
    | error e => rw [hfa] at h2; exact absurd h2 (by simp [Except.map])
    | ok s =>
      rw [hfa] at h2
      simp only [Except.map, Option.some.injEq] at h2
      refine ⟨s, rfl, ?_⟩
      rw [h3, ← h2, lookupS_setS]
      simp

/-! ## the attributes of the specifications -/

theorem specAttrs_keys (multi : Bool) : ∀ l : List (Str × Refs), ((specAttrs multi l).map (·.1)).Sublist (l.map (·.1)) := by
  intro l
  induction l with
  | nil => exact List.Sublist.refl _
  | cons p l ih =>
    obtain ⟨k, r⟩ := p
    unfold specAttrs
    cases specValue multi k r with
    | none => exact ih.cons _
    | some v => exact ih.cons_cons _

theorem specAttrs_lookup (multi : Bool) (k : Str) : ∀ l : List (Str × Refs), (l.map (·.1)).Nodup →
    lookupS k (specAttrs multi l) = (lookupS k l).bind (specValue multi k) := by
  intro l
  induction l with
  | nil => intro _; rfl
  | cons p l ih =>
    intro hn
    obtain ⟨k', r⟩ := p
    simp only [List.map_cons, List.nodup_cons] at hn
    unfold specAttrs
    cases hs : specValue multi k' r with
    | some v =>
      simp only [lookupS]
      by_cases e : k = k'
      · subst e; simp [hs]
      · simp [e, ih hn.2]
    | none =>
      simp only [lookupS]
      by_cases e : k = k'
      · subst e
        simp only [if_true, Option.bind_some, hs]
        apply lookupS_none_of_notMem
        intro hm
        exact hn.1 ((specAttrs_keys multi l).subset hm)
      · simp [e, ih hn.2]

/-- the value of an attribute in the specifications: the first one of the list -/
def firstOf : Refs → Option Str
  | .list l => l.head?
  | .text s => some s
  | .none_ => none

/-- all the values of an attribute of the specifications -/
def valuesOfRefs : Refs → List Str
  | .list l => l
  | .text s => [s]
  | .none_ => []

theorem formatAttr_noloc (sg : SG) (a : SGAttr) (s : Str) (h : (parseAttr sg a s).2 = none) :
    formatAttr sg a s .keep false = .ok s := by
  rw [formatAttr_keep, h]
  unfold outRoot
  rw [(parseAttr_none sg a s h).2]
  rfl

theorem mapM_noloc (sg : SG) (a : SGAttr) : ∀ l : List Str, (∀ s ∈ l, (parseAttr sg a s).2 = none) →
    l.mapM (fun s => formatAttr sg a s .keep false) = .ok l := by
  intro l
  induction l with
  | nil => intro _; rfl
  | cons x l ih =>
    intro h
    rw [List.mapM_cons, formatAttr_noloc sg a x (h x List.mem_cons_self), ih (fun s hs => h s (List.mem_cons_of_mem _ hs))]
    rfl

/-- the attributes given by `get_attrs` for formatting -/
theorem patchOf_lookup (sg : SG) (spec : CfSpec) (patch : Attrs) (hs : (spec.attrs.map (·.1)).Nodup) (h : patchOf sg spec .cf = .ok patch) :
    (patch.map (·.1)).Nodup ∧ ∀ k r, lookupS k spec.attrs = some r → ∀ x, firstOf r = some x →
      (∀ a, sgAttrOf k = some a → ∀ s ∈ valuesOfRefs r, (parseAttr sg a s).2 = none) →
      ∃ v, lookupS k patch = some v ∧ (sgAttrOf k = none → v = .str x) ∧ (v = .str x ∨ ∃ l, v = .list (x :: l)) := by
  have h' : formatAttrs sg .keep false (specAttrs true spec.attrs) = .ok patch := by
    have : updateS (specAttrs true spec.attrs) [] = specAttrs true spec.attrs := rfl
    rw [← this]
    exact h
  refine ⟨?_, ?_⟩
  · rw [formatAttrs_keys _ _ _ _ _ h']
    exact (specAttrs_keys true spec.attrs).nodup hs
  · intro k r hr x hx hloc
    have hl : lookupS k (specAttrs true spec.attrs) = specValue true k r := by
      rw [specAttrs_lookup true k _ hs, hr]; rfl
    obtain ⟨v, hv⟩ : ∃ v, specValue true k r = some v ∧ (sgAttrOf k = none → v = .str x) ∧ (v = .str x ∨ ∃ l, v = .list (x :: l)) ∧
        (∀ s, v = .str s → s ∈ valuesOfRefs r) ∧ (∀ l, v = .list l → l = valuesOfRefs r) := by
      cases r with
      | none_ => simp [firstOf] at hx
      | text s =>
        simp only [firstOf, Option.some.injEq] at hx
        subst hx
        exact ⟨.str s, rfl, fun _ => rfl, Or.inl rfl, by simp [valuesOfRefs], by simp⟩
      | list l =>
        cases l with
        | nil => simp [firstOf] at hx
        | cons y l =>
          simp only [firstOf, List.head?_cons, Option.some.injEq] at hx
          subst hx
          simp only [specValue, true_and]
          by_cases hc : k = "standard_name".toList ∨ k = "long_name".toList
          · rw [if_pos hc]
            refine ⟨_, rfl, fun hk => ?_, Or.inr ⟨l, rfl⟩, by simp, ?_⟩
            · exfalso
              unfold sgAttrOf at hk
              rcases hc with e | e <;> rw [e] at hk <;> simp at hk
            · intro l' e; injection e with e; exact e.symm
          · rw [if_neg hc]
            exact ⟨_, rfl, fun _ => rfl, Or.inl rfl, by simp [valuesOfRefs], by simp⟩
    obtain ⟨hv0, hv1, hv2, hv3, hv4⟩ := hv
    obtain ⟨_, f2⟩ := formatAttrs_lookup sg .keep false k _ patch h'
    obtain ⟨v', hi, hl'⟩ := f2 v (by rw [hl, hv0])
    have hvv : formatItem sg .keep false k v = .ok v := by
      unfold formatItem
      cases ha : sgAttrOf k with
      | none => rfl
      | some a =>
        cases a with
        | name => rfl
        | standardName =>
          cases v with
          | str s => simp only [formatAttr_noloc sg _ s (hloc _ ha s (hv3 s rfl))]; rfl
          | list l => simp only [mapM_noloc sg _ l (fun s hs => hloc _ ha s (by rw [← hv4 l rfl]; exact hs))]; rfl
          | other n => rfl
        | longName =>
          cases v with
          | str s => simp only [formatAttr_noloc sg _ s (hloc _ ha s (hv3 s rfl))]; rfl
          | list l => simp only [mapM_noloc sg _ l (fun s hs => hloc _ ha s (by rw [← hv4 l rfl]; exact hs))]; rfl
          | other n => rfl
    rw [hvv] at hi
    injection hi with hi
    subst hi
    exact ⟨v, hl', hv1, hv2⟩

/-! ## formatting one array -/

/-- the array is formatted with the specifications `spec` of the name `n`: the given name, or the one that it matches -/
def FormatsAs (sg : SG) (cat : CfCat) (o : FOpts) (name : Option Str) (attrs : Attrs) (n : Str) (spec : CfSpec) : Prop :=
  lookupS n cat = some spec ∧
    (o.name = some n ∨ o.name = none ∧ matchAny sg cat .any (dobjOf name attrs) = .ok (some n))

theorem usedName_of {sg : SG} {cat : CfCat} {o : FOpts} {name : Option Str} {attrs : Attrs} {n : Str} {spec : CfSpec}
    (h : FormatsAs sg cat o name attrs n spec) : usedName sg cat o name attrs = .ok (some (n, spec)) := by
  obtain ⟨h1, h2⟩ := h
  unfold usedName
  rcases h2 with h2 | ⟨h2, h3⟩
  · rw [h2]; simp only [h1]
  · rw [h2]; simp only [h3, h1]

theorem formatsAs_of {sg : SG} {cat : CfCat} {o : FOpts} {name : Option Str} {attrs : Attrs} {n : Str} {spec : CfSpec}
    (hu : usedName sg cat o name attrs = .ok (some (n, spec))) : FormatsAs sg cat o name attrs n spec := by
  unfold usedName at hu
  cases hn : o.name with
  | some n' =>
    rw [hn] at hu; simp only at hu
    cases hl : lookupS n' cat with
    | none => rw [hl] at hu; exact absurd hu (by simp)
    | some sp =>
      rw [hl] at hu
      simp only [Except.ok.injEq, Option.some.injEq, Prod.mk.injEq] at hu
      obtain ⟨e1, e2⟩ := hu
      subst e1 e2
      exact ⟨hl, Or.inl hn⟩
  | none =>
    rw [hn] at hu; simp only at hu
    cases hm : matchAny sg cat .any (dobjOf name attrs) with
    | error e => rw [hm] at hu; exact absurd hu (by simp)
    | ok m =>
      rw [hm] at hu
      cases m with
      | none => exact absurd hu (by simp)
      | some n' =>
        simp only at hu
        cases hl : lookupS n' cat with
        | none => rw [hl] at hu; exact absurd hu (by simp)
        | some sp =>
          rw [hl] at hu
          simp only [Except.ok.injEq, Option.some.injEq, Prod.mk.injEq] at hu
          obtain ⟨e1, e2⟩ := hu
          subst e1 e2
          exact ⟨hl, Or.inr ⟨hn, hm⟩⟩

theorem formatWith_inv {sg : SG} {o : FOpts} {rename : Bool} {n : Str} {spec : CfSpec} {nm : Option Str} {attrs : Attrs}
    {r : Option Str × Attrs} {m : Option Str} (h : formatWith sg o rename n spec nm attrs = .ok (r, m)) :
    ∃ newName patch, getCfName sg spec n o.specialize .keep = .ok newName ∧ patchOf sg spec o.attrs = .ok patch ∧
      sgFormat sg nm attrs o.loc o.standardize (some newName) patch rename o.replace = .ok r ∧
      (rename = false → mergeAttr sg .name nm (some newName) o.loc true = .ok m) := by
  unfold formatWith at h
  cases h1 : getCfName sg spec n o.specialize .keep with
  | error e => rw [h1] at h; exact absurd h (by simp)
  | ok newName =>
    rw [h1] at h
    cases h2 : patchOf sg spec o.attrs with
    | error e => rw [h2] at h; exact absurd h (by simp)
    | ok patch =>
      rw [h2] at h
      simp only at h
      cases h3 : sgFormat sg nm attrs o.loc o.standardize (some newName) patch rename o.replace with
      | error e => rw [h3] at h; exact absurd h (by simp)
      | ok r' =>
        rw [h3] at h
        simp only at h
        cases rename with
        | true =>
          simp only [if_true, Except.ok.injEq, Prod.mk.injEq] at h
          exact ⟨newName, patch, rfl, rfl, by rw [← h.1]; exact h3, fun e => absurd e (by simp)⟩
        | false =>
          simp only [Bool.false_eq_true, if_false] at h
          cases h4 : mergeAttr sg .name nm (some newName) o.loc true with
          | error e => rw [h4] at h; exact absurd h (by simp)
          | ok m' =>
            rw [h4] at h
            simp only [Except.ok.injEq, Prod.mk.injEq] at h
            exact ⟨newName, patch, rfl, rfl, by rw [← h.1]; exact h3, fun _ => by rw [h4, h.2]⟩

/-- the parts of the formatted array -/
theorem formatArr_inv {α} {sg : SG} {cat : CfCat} {o : FOpts} {a b : FArr α} {n : Str} {spec : CfSpec}
    (hf : FormatsAs sg cat o a.name a.var.attrs n spec) (h : formatArr sg cat o a = .ok b) :
    ∃ r, formatWith sg o true n spec a.name a.var.attrs = .ok (r, none) ∧ b.name = r.1 ∧ b.var.attrs = r.2 ∧
      b.var.data = a.var.data ∧
      ((∀ old, a.name = some old → o.renameDim = false ∨ a.var.dims ≠ [some old]) → b.var.dims = a.var.dims ∧ b.coords = a.coords) ∧
      (∀ old, a.name = some old → o.renameDim = true → a.var.dims = [some old] → b.var.dims = [r.1] ∧
        b.coords = a.coords.map (fun p => (newKey [(old, r.1)] p.1, renameVar [(old, r.1)] p.2))) := by
  unfold formatArr at h
  rw [usedName_of hf] at h
  simp only at h
  cases hw : formatWith sg o true n spec a.name a.var.attrs with
  | error e => rw [hw] at h; exact absurd h (by simp)
  | ok rm =>
    obtain ⟨r, m⟩ := rm
    have hm : m = none := by
      obtain ⟨nn, pp, _, _, hs, _⟩ := formatWith_inv hw
      unfold formatWith at hw
      simp only [*] at hw
      simp only [if_true, Except.ok.injEq, Prod.mk.injEq] at hw
      exact hw.2.symm
    subst hm
    rw [hw] at h
    simp only at h
    refine ⟨r, rfl, ?_⟩
    cases hn : a.name with
    | none =>
      rw [hn] at h
      simp only [Except.ok.injEq] at h
      subst h
      exact ⟨rfl, rfl, rfl, fun _ => ⟨rfl, rfl⟩, fun old e => absurd e (by simp)⟩
    | some old =>
      rw [hn] at h
      simp only at h
      by_cases hc : o.renameDim = true ∧ a.var.dims = [some old]
      · rw [if_pos hc] at h
        unfold renameArr at h
        simp only at h
        split at h
        · simp only [Except.ok.injEq] at h
          subst h
          refine ⟨rfl, rfl, rfl, ?_, ?_⟩
          · intro hh
            rcases hh old rfl with e | e
            · rw [hc.1] at e; exact absurd e (by simp)
            · exact absurd hc.2 e
          · intro old' e _ _
            injection e with e
            subst e
            refine ⟨?_, rfl⟩
            show (renameVar _ _).dims = _
            simp [renameVar, hc.2, newKey, lookupS]
        · exact absurd h (by simp)
      · rw [if_neg hc] at h
        simp only [Except.ok.injEq] at h
        subst h
        refine ⟨rfl, rfl, rfl, fun _ => ⟨rfl, rfl⟩, ?_⟩
        intro old' e h1 h2
        injection e with e
        subst e
        exact absurd ⟨h1, h2⟩ hc

/-- a name of the specifications that is not read as a located name -/
structure PlainName (sg : SG) (n : Str) : Prop where
  root : isRoot .name n
  noLoc : (parseAttr sg .name n).2 = none

theorem stdRoot_name {n : Str} (h : isRoot .name n) : stdRoot .name n = n := by
  unfold stdRoot replaceC
  simp only
  conv_rhs => rw [← List.map_id n]
  apply List.map_congr_left
  intro c hc
  rcases h.2 c hc with e | e
  · by_cases hb : c = ' '
    · subst hb; exact absurd e (by decide)
    · simp [hb]
  · exact absurd e.1 (by simp)

theorem getCfName_plain {sg : SG} {spec : CfSpec} {n : Str} (h : PlainName sg n) :
    getCfName sg spec n false .keep = .ok n := by
  unfold getCfName
  simp only [Bool.false_eq_true, if_false]
  rw [formatAttr_keep, h.noLoc]
  unfold outRoot
  rw [(parseAttr_none sg _ n h.noLoc).2]
  simp [stdRoot_name h.root]

theorem mergeAttr_none_left (sg : SG) (a : SGAttr) (x : Str) (loc : LocArg) (std : Bool) :
    mergeAttr sg a none (some x) loc std = (formatAttr sg a x loc std).map some := rfl

theorem formatAttr_plain_keep {sg : SG} {n : Str} (h : PlainName sg n) : formatAttr sg .name n .keep true = .ok n := by
  have := getCfName_plain (spec := ⟨[], [], []⟩) h
  exact this

/-- the name `new` of an array formatted with the CF name `n`, from its old name and the location asked for: `n` at the given
location; if the location is kept, `n` at the location of the old name, or just `n` if it had no name or a name without
location; just `n` if the location is removed -/
def NamedBy (sg : SG) (n : Str) (loc : LocArg) (old new : Option Str) : Prop :=
  (∀ l, loc = .str l → isLoc l → l ≠ "any".toList → sg.noPrefix l →
    ∃ s, new = some s ∧ parseAttr sg .name s = (n, some (lower l))) ∧
  (loc = .keep → (∀ o, old = some o → (parseAttr sg .name o).2 = none) → new = some n) ∧
  (∀ o l, loc = .keep → old = some o → (parseAttr sg .name o).2 = some l → sg.noPrefix l →
    ∃ s, new = some s ∧ parseAttr sg .name s = (n, some l)) ∧
  (loc = .no → new = some n)

theorem namedBy_merge (sg : SG) (hreg : sg.regular) (n : Str) (hp : PlainName sg n) (loc : LocArg) (old new : Option Str)
    (hname : mergeAttr sg .name old (some n) loc true = .ok new) : NamedBy sg n loc old new := by
  have hroot : (parseAttr sg .name n).1 = n := by
    rw [(parseAttr_none sg _ n hp.noLoc).2]
  refine ⟨?_, ?_, ?_, ?_⟩
  · intro l hl hll hany hnp
    rw [hl] at hname
    have hfm : (formatAttr sg .name n (.str l) true).map some = .ok new := by
      cases hnm : old with
      | none => rw [hnm] at hname; exact hname
      | some old => rw [hnm, C42_merge_location sg .name old n l true hany] at hname; exact hname
    cases hfa : formatAttr sg .name n (.str l) true with
    | error e => rw [hfa] at hfm; exact absurd hfm (by simp [Except.map])
    | ok s =>
      rw [hfa] at hfm
      simp only [Except.map, Except.ok.injEq] at hfm
      refine ⟨s, by rw [← hfm], ?_⟩
      rw [C38_format_parse sg hreg .name n l s true (by simpa using isRoot_isText hp.root) hll (fun _ => hnp) hfa]
      simp [hroot, stdRoot_name hp.root]
  · intro hk hold
    rw [hk] at hname
    cases hnm : old with
    | none =>
      rw [hnm, mergeAttr_none_left, formatAttr_plain_keep hp] at hname
      simp only [Except.map, Except.ok.injEq] at hname
      rw [← hname]
    | some old =>
      rw [hnm, C42_merge_none sg .name old n true (by unfold mergedLoc; rw [hp.noLoc]; exact hold old hnm)] at hname
      simp only [if_true, stdRoot_name hp.root, Except.ok.injEq] at hname
      rw [← hname]
  · intro old l hk hnm hol hnp
    rw [hk, hnm] at hname
    cases hr1 : new with
    | none => rw [hr1] at hname; exact absurd hname (mergeAttr_ne_none _ _ _ _ _ _)
    | some s =>
      rw [hr1] at hname
      refine ⟨s, rfl, ?_⟩
      rw [C42_merge_keep sg hreg .name old n s true (by simpa using isRoot_isText hp.root) l
        (by unfold mergedLoc; rw [hp.noLoc]; exact hol) (fun _ => hnp) hname]
      simp [hroot, stdRoot_name hp.root]
  · intro hk
    rw [hk] at hname
    have hfm : mergeAttr sg .name old (some n) .no true = .ok (some n) := by
      have hno : formatAttr sg .name n .no true = .ok n := by
        unfold formatAttr
        simp [hroot, stdRoot_name hp.root]
      cases old with
      | none => rw [mergeAttr_none_left, hno]; rfl
      | some old =>
        unfold mergeAttr
        simp only [reduceCtorEq, or_self, if_false]
        rw [hno]; rfl
    rw [hfm] at hname
    injection hname with hname
    rw [← hname]

/-- the CF name that an array takes: the name of the entry or, when `specialize` is true, the first name that the
specifications list for it, if any -/
def TargetName (spec : CfSpec) (n : Str) (specialize : Bool) (m : Str) : Prop :=
  (specialize = false → m = n) ∧ (specialize = true → spec.names = [] → m = n) ∧ ∀ first others, specialize = true → spec.names = first :: others → m = first

/-- **C100** (name): an array formatted with a CF name gets this name, or its specialised name if asked for, at the location asked for (`NamedBy`). -/
theorem C100_name {α} (sg : SG) (hreg : sg.regular) (cat : CfCat) (o : FOpts) (a b : FArr α) (n m : Str) (spec : CfSpec)
    (hf : FormatsAs sg cat o a.name a.var.attrs n spec) (ht : TargetName spec n o.specialize m) (hp : PlainName sg m)
    (h : formatArr sg cat o a = .ok b) : NamedBy sg m o.loc a.name b.name := by
  obtain ⟨r, hw, hb, -⟩ := formatArr_inv hf h
  obtain ⟨nn, patch, h1, h2, h3, -⟩ := formatWith_inv hw
  have hm : (if o.specialize then spec.names.headD n else n) = m := by
    cases ho : o.specialize with
    | false => simp [ht.1 ho]
    | true =>
      cases hn : spec.names with
      | nil => simp [ht.2.1 ho hn]
      | cons x l => simp [ht.2.2 x l ho hn]
  have : getCfName sg spec n o.specialize .keep = .ok m := by
    unfold getCfName
    rw [hm]
    exact formatAttr_plain_keep hp
  rw [this] at h1
  injection h1 with h1
  subst h1
  rw [hb]
  exact namedBy_merge sg hreg m hp _ _ _ (by simpa using sgFormat_name sg _ _ _ _ _ _ _ _ _ h3)

/-- the attributes `new` of an array of attributes `old` that is formatted with the specifications `spec` without
replacement: an attribute that the array already has is kept (in its standard form and at the requested location for
`standard_name` and `long_name`), an attribute that it has not takes the first value of the specifications (at the
requested location), and there are no others -/
def FilledBy (sg : SG) (spec : CfSpec) (loc : LocArg) (std : Bool) (old new : Attrs) : Prop := ∀ k : Str,
  (∀ v, lookupS k old = some v →
    ((k ≠ "standard_name".toList ∧ k ≠ "long_name".toList) → lookupS k new = some v) ∧
    (∀ s, v = .str s → k = "standard_name".toList →
      ∃ s', formatAttr sg .standardName s loc std = .ok s' ∧ lookupS k new = some (.str s')) ∧
    (∀ s, v = .str s → k = "long_name".toList →
      ∃ s', formatAttr sg .longName s loc std = .ok s' ∧ lookupS k new = some (.str s'))) ∧
  (∀ r x, lookupS k old = none → lookupS k spec.attrs = some r → firstOf r = some x →
    (∀ t, sgAttrOf k = some t → ∀ s ∈ valuesOfRefs r, (parseAttr sg t s).2 = none) →
    (sgAttrOf k = none → lookupS k new = some (.str x)) ∧
    (∀ t, sgAttrOf k = some t → ∃ s, formatAttr sg t x loc std = .ok s ∧ lookupS k new = some (.str s))) ∧
  (lookupS k old = none → (∀ r, lookupS k spec.attrs = some r → firstOf r = none) → lookupS k new = none)

theorem formatWith_filled {sg : SG} {o : FOpts} {rename : Bool} {n : Str} {spec : CfSpec} {nm : Option Str} {attrs : Attrs}
    {r : Option Str × Attrs} {m : Option Str} (h : formatWith sg o rename n spec nm attrs = .ok (r, m)) (ho : o.attrs = .cf)
    (hr : o.replace = false) (hd : (attrs.map (·.1)).Nodup) (hs : (spec.attrs.map (·.1)).Nodup) :
    FilledBy sg spec o.loc o.standardize attrs r.2 := by
  intro k
  obtain ⟨nn, patch, h1, h2, h3, -⟩ := formatWith_inv h
  rw [ho] at h2
  obtain ⟨hpn, hpl⟩ := patchOf_lookup sg spec patch hs h2
  obtain ⟨new, hnew, hlook, -⟩ := sgFormat_attrs sg _ _ _ _ _ _ _ _ _ hd hpn h3
  refine ⟨?_, ?_, ?_⟩
  · intro v hv
    simp only [hlook k]
    exact C42_existing_kept sg _ _ _ _ _ _ hpn hnew k v hv (Or.inl hr)
  · intro ref x hk hsp hx hloc
    obtain ⟨v, hv1, hv2, hv3⟩ := hpl k ref hsp x hx hloc
    obtain ⟨m1, m2⟩ := patchAttrs_missing sg _ _ _ _ _ _ hpn hnew k v hk hv1
    simp only [hlook k]
    exact ⟨fun hn => by rw [m1 hn, hv2 hn], fun t ht => m2 t x ht hv3⟩
  · intro hk hsp
    rw [hlook k]
    by_contra hne
    rcases (C42_no_loss sg _ _ _ _ _ _ hpn hnew k).mp hne with e | e
    · exact e hk
    · apply e
      have h' : formatAttrs sg .keep false (specAttrs true spec.attrs) = .ok patch := h2
      apply (formatAttrs_lookup sg .keep false k _ patch h').1
      rw [specAttrs_lookup true k _ hs]
      cases hr' : lookupS k spec.attrs with
      | none => rfl
      | some ref =>
        have hx := hsp ref hr'
        cases ref with
        | none_ => rfl
        | text s => simp [firstOf] at hx
        | list l =>
          cases l with
          | nil => rfl
          | cons y l => simp [firstOf] at hx

/-- **C100** (attributes): with the attributes of the specifications and without replacement, existing attributes are
kept and the missing ones are added (`FilledBy`). -/
theorem C100_attrs {α} (sg : SG) (cat : CfCat) (o : FOpts) (a b : FArr α) (n : Str) (spec : CfSpec)
    (hf : FormatsAs sg cat o a.name a.var.attrs n spec) (ho : o.attrs = .cf) (hr : o.replace = false)
    (hd : (a.var.attrs.map (·.1)).Nodup) (hs : (spec.attrs.map (·.1)).Nodup) (h : formatArr sg cat o a = .ok b) :
    FilledBy sg spec o.loc o.standardize a.var.attrs b.var.attrs := by
  obtain ⟨r, hw, -, hb, -⟩ := formatArr_inv hf h
  rw [hb]
  exact formatWith_filled hw ho hr hd hs

/-- **C100** (replacement): with `replace_attrs=True` the first value of the specifications replaces an existing
attribute that has no location; an attribute that the specifications do not have is kept as above. -/
theorem C100_replace {α} (sg : SG) (cat : CfCat) (o : FOpts) (a b : FArr α) (n : Str) (spec : CfSpec)
    (hf : FormatsAs sg cat o a.name a.var.attrs n spec) (ho : o.attrs = .cf) (hr : o.replace = true)
    (hd : (a.var.attrs.map (·.1)).Nodup) (hs : (spec.attrs.map (·.1)).Nodup) (h : formatArr sg cat o a = .ok b) (k : Str)
    (hk : sgAttrOf k = none) :
    (∀ r x, lookupS k spec.attrs = some r → firstOf r = some x → lookupS k b.var.attrs = some (.str x)) ∧
    (∀ v, lookupS k a.var.attrs = some v → lookupS k spec.attrs = none → lookupS k b.var.attrs = some v) := by
  obtain ⟨r, hw, -, hb, -⟩ := formatArr_inv hf h
  obtain ⟨nn, patch, h1, h2, h3, -⟩ := formatWith_inv hw
  rw [ho] at h2
  obtain ⟨hpn, hpl⟩ := patchOf_lookup sg spec patch hs h2
  rw [hr] at h3
  obtain ⟨new, hnew, hlook, -⟩ := sgFormat_attrs sg _ _ _ _ _ _ _ _ _ hd hpn h3
  rw [hb, hlook k]
  refine ⟨?_, ?_⟩
  · intro ref x hsp hx
    obtain ⟨v, hv1, hv2, -⟩ := hpl k ref hsp x hx (fun t ht => by rw [hk] at ht; exact absurd ht (by simp))
    rw [C42_replace sg _ _ _ _ _ hpn hnew k v hv1 hk, hv2 hk]
  · intro v hv hsp
    have hnp : lookupS k patch = none := by
      have h' : formatAttrs sg .keep false (specAttrs true spec.attrs) = .ok patch := h2
      exact (formatAttrs_lookup sg .keep false k _ patch h').1 (by rw [specAttrs_lookup true k _ hs, hsp]; rfl)
    have hsl : k ≠ "standard_name".toList ∧ k ≠ "long_name".toList := by
      constructor <;> (intro e; rw [e] at hk; revert hk; decide)
    exact (C42_existing_kept sg _ _ _ _ _ _ hpn hnew k v hv (Or.inr (fun hm => lookupS_some_of_mem k patch hm hnp))).1 hsl

/-- **C100** (attributes given by the caller): with `attrs=d` and without replacement an attribute that the array
already has is kept, an attribute that it has not takes the value of `d` (its first value in its standard form and at the
requested location for `standard_name` and `long_name`), and there are no others, whatever the specifications. With
replacement the value of `d` wins for an attribute that has no location, and the attributes that `d` has not are kept. -/
theorem C100_given {α} (sg : SG) (cat : CfCat) (o : FOpts) (a b : FArr α) (n : Str) (spec : CfSpec) (d : Attrs)
    (hf : FormatsAs sg cat o a.name a.var.attrs n spec) (ho : o.attrs = .dict d)
    (hd : (a.var.attrs.map (·.1)).Nodup) (hs : (d.map (·.1)).Nodup) (h : formatArr sg cat o a = .ok b) (k : Str) :
    (∀ v, lookupS k a.var.attrs = some v → (o.replace = false ∨ lookupS k d = none) →
      ((k ≠ "standard_name".toList ∧ k ≠ "long_name".toList) → lookupS k b.var.attrs = some v) ∧
      (∀ s, v = .str s → k = "standard_name".toList →
        ∃ s', formatAttr sg .standardName s o.loc o.standardize = .ok s' ∧ lookupS k b.var.attrs = some (.str s')) ∧
      (∀ s, v = .str s → k = "long_name".toList →
        ∃ s', formatAttr sg .longName s o.loc o.standardize = .ok s' ∧ lookupS k b.var.attrs = some (.str s'))) ∧
    (∀ v, lookupS k d = some v → (o.replace = true ∨ lookupS k a.var.attrs = none) → sgAttrOf k = none →
      lookupS k b.var.attrs = some v) ∧
    (∀ v t x, lookupS k d = some v → lookupS k a.var.attrs = none → sgAttrOf k = some t →
      (v = .str x ∨ ∃ l, v = .list (x :: l)) →
      ∃ s, formatAttr sg t x o.loc o.standardize = .ok s ∧ lookupS k b.var.attrs = some (.str s)) ∧
    (lookupS k a.var.attrs = none → lookupS k d = none → lookupS k b.var.attrs = none) := by
  obtain ⟨r, hw, -, hb, -⟩ := formatArr_inv hf h
  obtain ⟨nn, patch, h1, h2, h3, -⟩ := formatWith_inv hw
  rw [ho] at h2
  obtain rfl : d = patch := by
    have h2' : (Except.ok d : Except SGErr Attrs) = .ok patch := h2
    injection h2'
  obtain ⟨new, hnew, hlook, -⟩ := sgFormat_attrs sg _ _ _ _ _ _ _ _ _ hd hs h3
  rw [hb]
  simp only [hlook k]
  refine ⟨?_, ?_, ?_, ?_⟩
  · intro v hv hc
    exact C42_existing_kept sg _ _ _ _ _ _ hs hnew k v hv
      (hc.imp_right (fun hn hm => lookupS_some_of_mem k d hm hn))
  · intro v hv hc hk
    rcases hc with hr | hn
    · rw [hr] at hnew
      exact C42_replace sg _ _ _ _ _ hs hnew k v hv hk
    · exact (patchAttrs_missing sg _ _ _ _ _ _ hs hnew k v hn hv).1 hk
  · intro v t x hv hn hk hx
    exact (patchAttrs_missing sg _ _ _ _ _ _ hs hnew k v hn hv).2 t x hk hx
  · intro hn hp
    by_contra hne
    rcases (C42_no_loss sg _ _ _ _ _ _ hs hnew k).mp hne with e | e
    · exact e hn
    · exact e hp

/-- **C100** (`attrs=False`): no attribute is added, and those of the array are kept. -/
theorem C100_no_attrs {α} (sg : SG) (cat : CfCat) (o : FOpts) (a b : FArr α) (n : Str) (spec : CfSpec)
    (hf : FormatsAs sg cat o a.name a.var.attrs n spec) (ho : o.attrs = .no)
    (hd : (a.var.attrs.map (·.1)).Nodup) (h : formatArr sg cat o a = .ok b) (k : Str) :
    (∀ v, lookupS k a.var.attrs = some v →
      ((k ≠ "standard_name".toList ∧ k ≠ "long_name".toList) → lookupS k b.var.attrs = some v) ∧
      (∀ s, v = .str s → k = "standard_name".toList →
        ∃ s', formatAttr sg .standardName s o.loc o.standardize = .ok s' ∧ lookupS k b.var.attrs = some (.str s')) ∧
      (∀ s, v = .str s → k = "long_name".toList →
        ∃ s', formatAttr sg .longName s o.loc o.standardize = .ok s' ∧ lookupS k b.var.attrs = some (.str s'))) ∧
    (lookupS k a.var.attrs = none → lookupS k b.var.attrs = none) := by
  obtain ⟨r, hw, -, hb, -⟩ := formatArr_inv hf h
  obtain ⟨nn, patch, h1, h2, h3, -⟩ := formatWith_inv hw
  rw [ho] at h2
  obtain rfl : [] = patch := by
    have h2' : (Except.ok [] : Except SGErr Attrs) = .ok patch := h2
    injection h2'
  obtain ⟨new, hnew, hlook, -⟩ := sgFormat_attrs sg _ _ _ _ _ _ _ _ _ hd (by simp) h3
  rw [hb]
  simp only [hlook k]
  refine ⟨?_, ?_⟩
  · intro v hv
    exact C42_existing_kept sg _ _ _ _ _ _ (by simp) hnew k v hv (Or.inr (by simp))
  · intro hn
    by_contra hne
    rcases (C42_no_loss sg _ _ _ _ _ _ (by simp) hnew k).mp hne with e | e
    · exact e hn
    · exact e rfl

/-- **C100** (the rest): formatting changes neither the data nor, except for a one-dimensional array named after its
dimension, the dimensions and the coordinates; in that case the dimension and the coordinate take the new name. -/
theorem C100_data {α} (sg : SG) (cat : CfCat) (o : FOpts) (a b : FArr α) (h : formatArr sg cat o a = .ok b) :
    b.var.data = a.var.data ∧
    ((∀ old, a.name = some old → o.renameDim = false ∨ a.var.dims ≠ [some old]) → b.var.dims = a.var.dims ∧ b.coords = a.coords) ∧
    b.var.dims.length = a.var.dims.length ∧ b.coords.map (fun p => p.2.data) = a.coords.map (fun p => p.2.data) ∧
    b.coords.map (fun p => p.2.attrs) = a.coords.map (fun p => p.2.attrs) ∧
    (∀ old, a.name = some old → o.renameDim = true → a.var.dims = [some old] → b.name ≠ a.name →
      b.var.dims = [b.name] ∧ ∀ v, (some old, v) ∈ a.coords → ∃ v', (b.name, v') ∈ b.coords ∧ v'.data = v.data) := by
  cases hu : usedName sg cat o a.name a.var.attrs with
  | error e => unfold formatArr at h; rw [hu] at h; exact absurd h (by simp)
  | ok u =>
    cases u with
    | none =>
      unfold formatArr at h; rw [hu] at h
      simp only [Except.ok.injEq] at h
      subst h
      exact ⟨rfl, fun _ => ⟨rfl, rfl⟩, rfl, rfl, rfl, fun old _ _ _ hne => absurd rfl hne⟩
    | some ns =>
      obtain ⟨n, spec⟩ := ns
      have hf : FormatsAs sg cat o a.name a.var.attrs n spec := formatsAs_of hu
      obtain ⟨r, hw, hbn, hb, hdat, hsame, hren⟩ := formatArr_inv hf h
      by_cases hc : ∀ old, a.name = some old → o.renameDim = false ∨ a.var.dims ≠ [some old]
      · obtain ⟨e1, e2⟩ := hsame hc
        refine ⟨hdat, fun _ => ⟨e1, e2⟩, by rw [e1], by rw [e2], by rw [e2], ?_⟩
        intro old ha h1 h2 _
        rcases hc old ha with e | e
        · rw [h1] at e; exact absurd e (by simp)
        · exact absurd h2 e
      · push Not at hc
        obtain ⟨old, ha, h1, h2⟩ := hc
        have h1 : o.renameDim = true := by cases hh : o.renameDim with
          | true => rfl
          | false => exact absurd hh h1
        obtain ⟨e1, e2⟩ := hren old ha h1 h2
        refine ⟨hdat, fun hh => ?_, by rw [e1, h2]; rfl, ?_, ?_, ?_⟩
        · rcases hh old ha with e | e
          · rw [h1] at e; exact absurd e (by simp)
          · exact absurd h2 e
        · rw [e2, List.map_map]; rfl
        · rw [e2, List.map_map]; rfl
        · intro old' ha' _ _ _
          rw [ha] at ha'
          injection ha' with ha'
          subst ha'
          refine ⟨by rw [e1, hbn], fun v hv => ?_⟩
          rw [e2, hbn]
          refine ⟨renameVar [(old, r.1)] v, ?_, rfl⟩
          exact List.mem_map.mpr ⟨(some old, v), hv, by simp [newKey, lookupS]⟩

/-- **C100** (no match): an array that matches nothing is returned as it is, and a name that is not in the specifications
is refused. -/
theorem C100_unmatched {α} (sg : SG) (cat : CfCat) (o : FOpts) (a : FArr α) :
    (o.name = none → matchAny sg cat .any (dobjOf a.name a.var.attrs) = .ok none → formatArr sg cat o a = .ok a) ∧
    (∀ n, o.name = some n → lookupS n cat = none → formatArr sg cat o a = .error .assertion) := by
  constructor
  · intro h1 h2
    unfold formatArr usedName
    rw [h1]; simp only [h2]
  · intro n h1 h2
    unfold formatArr usedName
    rw [h1]; simp only [h2]

end Xoa
