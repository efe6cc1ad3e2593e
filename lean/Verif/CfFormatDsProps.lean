import Verif.CfFormatProps
import Mathlib.Data.List.Nodup

/-! # Formatting arrays with coordinates and datasets (C101-C107) -/

namespace Xoa

theorem formatInPlace_unmatched {sg : SG} {cat : CfCat} {o : FOpts} {nm : Option Str} {attrs : Attrs} (hn : o.name = none)
    (h : matchAny sg cat .any (dobjOf nm attrs) = .ok none) : formatInPlace sg cat o nm attrs = .ok ((nm, attrs), none) := by
  unfold formatInPlace usedName
  rw [hn]; simp only [h]

theorem formatInPlace_formats {sg : SG} {cat : CfCat} {o : FOpts} {nm : Option Str} {attrs : Attrs} {n : Str} {spec : CfSpec}
    (h : FormatsAs sg cat o nm attrs n spec) : formatInPlace sg cat o nm attrs = formatWith sg o false n spec nm attrs := by
  unfold formatInPlace
  rw [usedName_of h]

/-- the options used for the coordinate `k` -/
def coordOpts (loc : LocArg) (standardize replace : Bool) (names : List (Str × Str)) (k : Option Str) : FOpts :=
  { name := k.bind (fun s => lookupS s names), loc := loc, standardize := standardize, replace := replace }

theorem formatCoords_spec {α} (sg : SG) (cat : CfCat) (loc : LocArg) (std replace : Bool) (names : List (Str × Str)) :
    ∀ (coords cs : List (Option Str × FVar α)) (m : List (Str × Option Str)),
      formatCoords sg cat loc std replace names coords = .ok (cs, m) →
      cs.map (fun p => (p.1, p.2.dims, p.2.data)) = coords.map (fun p => (p.1, p.2.dims, p.2.data)) ∧
      (∀ k, some k ∉ coords.map (·.1) → lookupS k m = none) ∧
      ((coords.map (·.1)).Nodup → ∀ k v, (some k, v) ∈ coords → ∃ r new,
        formatInPlace sg cat (coordOpts loc std replace names (some k)) (some k) v.attrs = .ok (r, new) ∧ lookupS k m = some new ∧
        (some k, { v with attrs := r.2 }) ∈ cs) := by
  intro coords
  induction coords with
  | nil =>
    intro cs m h
    simp only [formatCoords, Except.ok.injEq, Prod.mk.injEq] at h
    obtain ⟨h1, h2⟩ := h
    subst h1 h2
    exact ⟨rfl, fun _ _ => rfl, fun _ k v hm => absurd hm (by simp)⟩
  | cons p rest ih =>
    intro cs m h
    obtain ⟨k, v⟩ := p
    rw [formatCoords] at h
    cases hi : formatInPlace sg cat { name := k.bind (fun s => lookupS s names), loc := loc, standardize := std, replace := replace } k v.attrs with
    | error e => rw [hi] at h; exact absurd h (by simp)
    | ok rn =>
      obtain ⟨r, new⟩ := rn
      rw [hi] at h
      cases hr : formatCoords sg cat loc std replace names rest with
      | error e => rw [hr] at h; exact absurd h (by simp)
      | ok csm =>
        obtain ⟨cs', m'⟩ := csm
        rw [hr] at h
        simp only [Except.ok.injEq, Prod.mk.injEq] at h
        obtain ⟨h1, h2⟩ := h
        subst h1
        obtain ⟨i1, i2, i3⟩ := ih cs' m' hr
        refine ⟨by simp [i1], ?_, ?_⟩
        · intro k' hk'
          simp only [List.map_cons, List.mem_cons, not_or] at hk'
          rw [← h2]
          cases k with
          | none => exact i2 k' hk'.2
          | some s =>
            simp only [lookupS]
            rw [if_neg (fun e => hk'.1 (by rw [e]))]
            exact i2 k' hk'.2
        · intro hn k' v' hm
          simp only [List.map_cons, List.nodup_cons] at hn
          rcases List.mem_cons.mp hm with e | e
          · injection e with e1 e2
            subst e1 e2
            refine ⟨r, new, hi, ?_, List.mem_cons_self⟩
            rw [← h2]
            simp [lookupS]
          · obtain ⟨r', new', j1, j2, j3⟩ := i3 hn.2 k' v' e
            refine ⟨r', new', j1, ?_, List.mem_cons_of_mem _ j3⟩
            rw [← h2]
            cases k with
            | none => exact j2
            | some s =>
              simp only [lookupS]
              rw [if_neg]
              · exact j2
              · intro e'
                apply hn.1
                rw [← e']
                exact List.mem_map_of_mem (f := (·.1)) e

theorem renameArr_inv {α} {m : List (Str × Option Str)} {a b : FArr α} (h : renameArr m a = .ok b) :
    b.name = a.name ∧ b.var = renameVar m a.var ∧ b.coords = a.coords.map (fun p => (newKey m p.1, renameVar m p.2)) ∧
    (b.coords.map (·.1)).Nodup := by
  unfold renameArr at h
  dsimp only at h
  split at h
  · next hn =>
    simp only [Except.ok.injEq] at h
    subst h
    exact ⟨rfl, rfl, rfl, hn⟩
  · exact absurd h (by simp)

theorem formatDataVar_inv {α} {sg : SG} {vcat ccat : CfCat} {o : FOpts} {names : List (Str × Str)} {a b : FArr α}
    (h : formatDataVar sg vcat ccat o true names a = .ok b) :
    ∃ r new cs m, formatInPlace sg vcat o a.name a.var.attrs = .ok (r, new) ∧
      formatCoords sg ccat o.loc o.standardize o.replace names a.coords = .ok (cs, m) ∧
      b.name = (if truthyName new = true then new else r.1) ∧ b.var.attrs = r.2 ∧ b.var.data = a.var.data ∧
      b.var.dims = a.var.dims.map (newKey m) ∧ b.coords = cs.map (fun p => (newKey m p.1, renameVar m p.2)) ∧
      (m ≠ [] → (b.coords.map (·.1)).Nodup) := by
  unfold formatDataVar formatVarCore at h
  cases h1 : formatInPlace sg vcat o a.name a.var.attrs with
  | error e => rw [h1] at h; exact absurd h (by simp)
  | ok rn =>
    obtain ⟨r, new⟩ := rn
    rw [h1] at h
    simp only [if_true, Bool.true_and] at h
    cases h2 : formatCoords sg ccat o.loc o.standardize o.replace names a.coords with
    | error e => rw [h2] at h; exact absurd h (by simp)
    | ok csm =>
      obtain ⟨cs, m⟩ := csm
      rw [h2] at h
      simp only at h
      refine ⟨r, new, cs, m, rfl, rfl, ?_⟩
      by_cases hm : m = []
      · rw [if_pos hm] at h
        simp only [Except.ok.injEq] at h
        subst h
        have hk : ∀ x : Option Str, newKey m x = x := by
          intro x; rw [hm]; cases x <;> rfl
        have hv : ∀ v : FVar α, renameVar m v = v := by
          intro v
          unfold renameVar
          have : v.dims.map (newKey m) = v.dims := by
            conv_rhs => rw [← List.map_id v.dims]
            exact List.map_congr_left (fun x _ => hk x)
          rw [this]
        refine ⟨rfl, rfl, rfl, ?_, ?_, fun e => absurd hm e⟩
        · have := congrArg FVar.dims (hv a.var)
          exact this.symm
        · show cs = _
          conv_lhs => rw [← List.map_id cs]
          apply List.map_congr_left
          intro p _
          rw [hk, hv]; rfl
      · rw [if_neg hm] at h
        obtain ⟨e1, e2, e3, e4⟩ := renameArr_inv h
        exact ⟨e1, by rw [e2]; rfl, by rw [e2]; rfl, by rw [e2]; rfl, e3, fun _ => e4⟩

/-- **C108 is violated**: when an array with coordinates is formatted, every coordinate that matches no CF coordinate
loses its name: it is renamed to `None`, and so is its dimension. -/
theorem C108_array_violated {α} (sg : SG) (vcat ccat : CfCat) (o : FOpts) (names : List (Str × Str)) (a b : FArr α)
    (hn : (a.coords.map (·.1)).Nodup) (k : Str) (v : FVar α) (hk : (some k, v) ∈ a.coords) (hna : lookupS k names = none)
    (hu : matchAny sg ccat .any (dobjOf (some k) v.attrs) = .ok none) (h : formatDataVar sg vcat ccat o true names a = .ok b) :
    (∃ v', (none, v') ∈ b.coords ∧ v'.data = v.data) ∧ (some k ∈ a.var.dims → none ∈ b.var.dims) := by
  obtain ⟨r, new, cs, m, h1, h2, -, -, -, hd, hc, -⟩ := formatDataVar_inv h
  obtain ⟨-, -, i3⟩ := formatCoords_spec sg ccat _ _ _ _ _ _ _ h2
  obtain ⟨r', new', j1, j2, j3⟩ := i3 hn k v hk
  rw [formatInPlace_unmatched (by simp [coordOpts, hna]) hu] at j1
  simp only [Except.ok.injEq, Prod.mk.injEq] at j1
  have hkey : newKey m (some k) = none := by
    show (lookupS k m).getD (some k) = none
    rw [j2, ← j1.2]; rfl
  refine ⟨?_, ?_⟩
  · rw [hc]
    exact ⟨_, List.mem_map.mpr ⟨_, j3, Prod.ext hkey rfl⟩, rfl⟩
  · intro hdim
    rw [hd]
    exact List.mem_map.mpr ⟨some k, hdim, hkey⟩

/-- **C108 is violated**: an array with two coordinates that match no CF coordinate cannot be formatted at all. -/
theorem C108_array_two_violated {α} (sg : SG) (vcat ccat : CfCat) (o : FOpts) (names : List (Str × Str)) (a : FArr α)
    (hn : (a.coords.map (·.1)).Nodup) (k k' : Str) (v v' : FVar α) (hkk : k ≠ k') (hk : (some k, v) ∈ a.coords) (hk' : (some k', v') ∈ a.coords)
    (hna : lookupS k names = none) (hna' : lookupS k' names = none)
    (hu : matchAny sg ccat .any (dobjOf (some k) v.attrs) = .ok none)
    (hu' : matchAny sg ccat .any (dobjOf (some k') v'.attrs) = .ok none) : ∃ e, formatDataVar sg vcat ccat o true names a = .error e := by
  cases h : formatDataVar sg vcat ccat o true names a with
  | error e => exact ⟨e, rfl⟩
  | ok b =>
    exfalso
    obtain ⟨r, new, cs, m, h1, h2, -, -, -, hd, hc, hnd⟩ := formatDataVar_inv h
    obtain ⟨i1, -, i3⟩ := formatCoords_spec sg ccat _ _ _ _ _ _ _ h2
    obtain ⟨r1, new1, j1, j2, j3⟩ := i3 hn k v hk
    obtain ⟨r2, new2, l1, l2, l3⟩ := i3 hn k' v' hk'
    rw [formatInPlace_unmatched (by simp [coordOpts, hna]) hu] at j1
    rw [formatInPlace_unmatched (by simp [coordOpts, hna']) hu'] at l1
    simp only [Except.ok.injEq, Prod.mk.injEq] at j1 l1
    have hm : m ≠ [] := by intro e; rw [e] at j2; simp [lookupS] at j2
    have e1 : newKey m (some k) = none := by show (lookupS k m).getD (some k) = none; rw [j2, ← j1.2]; rfl
    have e2 : newKey m (some k') = none := by show (lookupS k' m).getD (some k') = none; rw [l2, ← l1.2]; rfl
    have hkeys : cs.map (·.1) = a.coords.map (·.1) := by
      have := congrArg (List.map Prod.fst) i1
      simpa [List.map_map, Function.comp_def] using this
    have hnd' : (cs.map (fun p => newKey m p.1)).Nodup := by
      have := hnd hm
      rw [hc, List.map_map] at this
      exact this
    have hinj := List.inj_on_of_nodup_map hnd'
    have := hinj j3 l3 (by show newKey m (some k) = newKey m (some k'); rw [e1, e2])
    injection this with this
    injection this with this
    exact hkk this

/-! ## what remains true -/

theorem newKey_some {m : List (Str × Option Str)} {k : Str} {new : Option Str} (h : lookupS k m = some new) : newKey m (some k) = new := by
  show (lookupS k m).getD (some k) = new
  rw [h]; rfl

theorem newKey_other {m : List (Str × Option Str)} {k : Str} (h : lookupS k m = none) : newKey m (some k) = some k := by
  show (lookupS k m).getD (some k) = some k
  rw [h]; rfl

theorem formatAttr_ne_nil {sg : SG} {n : Str} (hp : PlainName sg n) {loc : LocArg} {s : Str}
    (h : formatAttr sg .name n loc true = .ok s) : s ≠ [] := by
  have hroot : (parseAttr sg .name n).1 = n := by rw [(parseAttr_none sg _ n hp.noLoc).2]
  have hn : n ≠ [] := hp.root.1
  have hfmt : ∀ f l, fmt f n l ≠ [] := by
    intro f l e
    unfold fmt at e
    simp only [List.append_eq_nil_iff] at e
    exact hn e.1.1.1.2
  unfold formatAttr at h
  simp only [hroot, if_true, stdRoot_name hp.root, hp.noLoc] at h
  cases loc with
  | keep => simp only [Except.ok.injEq] at h; rw [← h]; exact hn
  | no => simp only [Except.ok.injEq] at h; rw [← h]; exact hn
  | true_ =>
    simp only at h
    split at h
    · exact absurd h (by simp)
    · simp only [Except.ok.injEq] at h; rw [← h]; exact hn
  | str l =>
    simp only at h
    split at h
    · simp only [Except.ok.injEq] at h; rw [← h]; exact hn
    · split at h
      · exact absurd h (by simp)
      · simp only [Except.ok.injEq] at h
        rw [← h]
        exact hfmt _ _

theorem truthyName_named {sg : SG} {n : Str} {loc : LocArg} {old new : Option Str} (hp : PlainName sg n)
    (h : mergeAttr sg .name old (some n) loc true = .ok new) : truthyName new = true := by
  have key : ∀ loc', (formatAttr sg .name n loc' true).map some = .ok new → truthyName new = true := by
    intro loc' h
    cases hf : formatAttr sg .name n loc' true with
    | error e => rw [hf] at h; exact absurd h (by simp [Except.map])
    | ok s =>
      rw [hf] at h
      simp only [Except.map, Except.ok.injEq] at h
      have := formatAttr_ne_nil hp hf
      rw [← h]
      cases s with
      | nil => exact absurd rfl this
      | cons c s => rfl
  cases old with
  | none => exact key _ h
  | some o => exact key _ h

/-- the name given by `formatWith` without renaming -/
theorem formatWith_named {sg : SG} (hreg : sg.regular) {o : FOpts} {n : Str} {spec : CfSpec} {nm : Option Str} {attrs : Attrs}
    {r : Option Str × Attrs} {m : Option Str} (hp : PlainName sg n) (ho : o.specialize = false)
    (h : formatWith sg o false n spec nm attrs = .ok (r, m)) : NamedBy sg n o.loc nm m ∧ truthyName m = true ∧ (nm ≠ none → r.1 = nm) ∧ (nm = none → r.1 = m) := by
  obtain ⟨nn, patch, h1, h2, h3, h4⟩ := formatWith_inv h
  rw [ho, getCfName_plain hp] at h1
  injection h1 with h1
  subst h1
  have h4 := h4 rfl
  have h5 := sgFormat_name sg _ _ _ _ _ _ _ _ _ h3
  refine ⟨namedBy_merge sg hreg n hp _ _ _ h4, truthyName_named hp h4, ?_, ?_⟩
  · intro hnm
    simpa [hnm] using h5
  · intro hnm
    rw [if_pos (Or.inr hnm)] at h5
    rw [h5] at h4
    injection h4

/-- **C101** (matched coordinates): a coordinate that matches a CF coordinate (or whose CF name is given) takes its name at
the requested location and its missing attributes, keeps its data, and the dimension of the array that has its name is
renamed with it. -/
theorem C101_coords {α} (sg : SG) (hreg : sg.regular) (vcat ccat : CfCat) (o : FOpts) (names : List (Str × Str)) (a b : FArr α)
    (hn : (a.coords.map (·.1)).Nodup) (k : Str) (v : FVar α) (hk : (some k, v) ∈ a.coords) (n : Str) (spec : CfSpec)
    (hf : FormatsAs sg ccat { name := lookupS k names, loc := o.loc, standardize := o.standardize, replace := o.replace } (some k) v.attrs n spec)
    (hp : PlainName sg n) (h : formatDataVar sg vcat ccat o true names a = .ok b) :
    ∃ new v', (some new, v') ∈ b.coords ∧ NamedBy sg n o.loc (some k) (some new) ∧ v'.data = v.data ∧
      (o.replace = false → (v.attrs.map (·.1)).Nodup → (spec.attrs.map (·.1)).Nodup →
        FilledBy sg spec o.loc o.standardize v.attrs v'.attrs) ∧
      (∀ i : Nat, a.var.dims[i]? = some (some k) → b.var.dims[i]? = some (some new)) ∧
      (∀ i : Nat, v.dims[i]? = some (some k) → v'.dims[i]? = some (some new)) := by
  obtain ⟨r, new, cs, m, h1, h2, -, -, -, hd, hc, -⟩ := formatDataVar_inv h
  obtain ⟨-, -, i3⟩ := formatCoords_spec sg ccat _ _ _ _ _ _ _ h2
  obtain ⟨r', new', j1, j2, j3⟩ := i3 hn k v hk
  rw [formatInPlace_formats (o := coordOpts o.loc o.standardize o.replace names (some k)) hf] at j1
  obtain ⟨g1, g2, -, -⟩ := formatWith_named hreg hp (by rfl) j1
  have hkey := newKey_some j2
  cases new' with
  | none => exact absurd g2 (by decide)
  | some s =>
    refine ⟨s, renameVar m { v with attrs := r'.2 }, ?_, g1, rfl, ?_, ?_, ?_⟩
    · rw [hc]
      exact List.mem_map.mpr ⟨_, j3, Prod.ext hkey rfl⟩
    · intro hr hd hs
      exact formatWith_filled (o := coordOpts o.loc o.standardize o.replace names (some k)) j1 rfl hr hd hs
    · intro i hi
      rw [hd, List.getElem?_map, hi]
      exact congrArg some hkey
    · intro i hi
      show (v.dims.map (newKey m))[i]? = _
      rw [List.getElem?_map, hi]
      exact congrArg some hkey

/-- **C101** (the variable): the variable takes the CF name that it matches (or that is given) at the requested location
and its missing attributes; it is left as it is when it matches nothing. Its data and the data of the coordinates are kept. -/
theorem C101_variable {α} (sg : SG) (hreg : sg.regular) (vcat ccat : CfCat) (o : FOpts) (names : List (Str × Str)) (a b : FArr α)
    (h : formatDataVar sg vcat ccat o true names a = .ok b) :
    b.var.data = a.var.data ∧ b.coords.map (fun p => p.2.data) = a.coords.map (fun p => p.2.data) ∧
    b.var.dims.length = a.var.dims.length ∧
    (∀ (i : Nat) (d : Str), a.var.dims[i]? = some (some d) → some d ∉ a.coords.map (·.1) → b.var.dims[i]? = some (some d)) ∧
    (o.name = none → matchAny sg vcat .any (dobjOf a.name a.var.attrs) = .ok none → b.name = a.name ∧ b.var.attrs = a.var.attrs) ∧
    (∀ n spec, FormatsAs sg vcat o a.name a.var.attrs n spec → PlainName sg n → o.specialize = false →
      NamedBy sg n o.loc a.name b.name ∧
      (o.attrs = .cf → o.replace = false → (a.var.attrs.map (·.1)).Nodup → (spec.attrs.map (·.1)).Nodup →
        FilledBy sg spec o.loc o.standardize a.var.attrs b.var.attrs)) := by
  obtain ⟨r, new, cs, m, h1, h2, hname, hattr, hdat, hd, hc, -⟩ := formatDataVar_inv h
  obtain ⟨i1, i2, -⟩ := formatCoords_spec sg ccat _ _ _ _ _ _ _ h2
  refine ⟨hdat, ?_, by rw [hd]; simp, ?_, ?_, ?_⟩
  · rw [hc, List.map_map]
    have := congrArg (List.map (fun q : Option Str × List (Option Str) × α => q.2.2)) i1
    simpa [List.map_map, Function.comp_def, renameVar] using this
  · intro i d hi hnd
    rw [hd, List.getElem?_map, hi]
    exact congrArg some (newKey_other (i2 d hnd))
  · intro ho hu
    rw [formatInPlace_unmatched ho hu] at h1
    simp only [Except.ok.injEq, Prod.mk.injEq] at h1
    rw [hname, hattr, ← h1.1, ← h1.2]
    exact ⟨rfl, rfl⟩
  · intro n spec hf hp hsp
    rw [formatInPlace_formats hf] at h1
    obtain ⟨g1, g2, g3, g4⟩ := formatWith_named hreg hp hsp h1
    refine ⟨?_, ?_⟩
    · rw [hname]
      rw [if_pos g2]; exact g1
    · intro ho hr hd' hs
      rw [hattr]
      exact formatWith_filled h1 ho hr hd' hs

end Xoa
