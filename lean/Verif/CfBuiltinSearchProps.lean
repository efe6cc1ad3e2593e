import Verif.CfBuiltinGetProps
import Verif.ArgParseProps

/-!
# Searching a dataset for a data variable with the built-in CF specifications (C182)
-/

set_option maxRecDepth 20000

namespace Xoa

/-- how a data variable is told: its CF name and its aliases, and its standard names -/
def asKnown (x : Str) (spec : CfSpec) : Known := ⟨x, x :: spec.names, stdsOf spec, [], none⟩

theorem vars_texts : (builtinVars.all fun p => (p.1 :: p.2.names ++ stdsOf p.2).all plainText) = true := by decide +kernel

theorem vars_keys : (builtinVars.map (·.1)).Nodup := by decide +kernel

/-- the data variables that are also coordinates -/
def alsoCoords : List Str := ["depth".toList, "altitude".toList, "sig".toList]

theorem vars_coords : (builtinVars.all fun p => alsoCoords.contains p.1 || (lookupS p.1 builtinCoords).isNone) = true := by decide +kernel

theorem asKnown_plain (x : Str) (spec : CfSpec) (hx : (x, spec) ∈ loadedVars) : KnownPlain (asKnown x spec) := by
  rw [loadedVars_eq] at hx
  refine ⟨?_, fun a ha => by cases ha⟩
  intro v hv
  have := List.all_eq_true.1 (List.all_eq_true.1 vars_texts _ hx) v
  apply this
  simpa [asKnown] using hv

theorem asKnown_crits (x : Str) (spec : CfSpec) (hx : (x, spec) ∈ loadedVars) (c : Str × Refs) :
    c ∈ orderedCrits x spec ↔ c ∈ (asKnown x spec).crits := by
  rw [loadedVars_eq] at hx
  have h := List.all_eq_true.1 vars_plain _ hx
  rw [Bool.and_eq_true] at h
  obtain ⟨h1, h2⟩ := h
  unfold plainCrits at h1
  simp only [Bool.and_eq_true, List.all_eq_true, Bool.or_eq_true, beq_iff_eq] at h1
  obtain ⟨⟨hall, hn⟩, hs⟩ := h1
  unfold noAxisUnits at h2
  simp only [List.all_eq_true, Bool.and_eq_true, bne_iff_ne] at h2
  have hk : (asKnown x spec).crits = [("name".toList, .list (x :: spec.names)), ("standard_name".toList, .list (stdsOf spec))] := rfl
  rw [hk]
  simp only [List.mem_cons, List.not_mem_nil, or_false]
  constructor
  · intro hc
    rcases hall c hc with ((h | h) | h) | h
    · exact Or.inl h
    · exact Or.inr h
    · exact absurd h (h2 c hc).1
    · exact absurd h (h2 c hc).2
  · rintro (rfl | rfl)
    · exact List.contains_iff_mem.1 hn
    · exact List.contains_iff_mem.1 hs

theorem vars_lookup (x : Str) (spec : CfSpec) (hx : (x, spec) ∈ loadedVars) : lookupS x loadedVars = some spec := by
  rw [loadedVars_eq] at hx ⊢
  exact lookupS_of_mem_nodup x spec builtinVars vars_keys hx

/-- **C182** (found): with the built-in specifications, when one data variable `o` of a dataset is told to be the data variable `x`, by its name or its standard name (in any case, with or
without a location), and nothing tells this of the others, `search(ds, x)`, `search_data_var(ds, x)` and `get(ds, x)` give `o`, without warning, whatever the mode of errors, the coordinates
of the dataset, the other variables and the other attributes are. -/
theorem C182_found (x : Str) (spec : CfSpec) (hx : (x, spec) ∈ loadedVars) (errors : EMode) (pre post coords : List DObj) (o : DObj)
    (ht : ∀ y ∈ pre ++ o :: post, TextOrNone y "standard_name".toList) (hu : ∀ y ∈ pre ++ post, Untold (asKnown x spec) y) (ho : Told (asKnown x spec) o) :
    specsSearch {} loadedTwo ⟨some (pre ++ o :: post), coords⟩ .any x errors = .ok (some (o, x), 0) ∧
    searchName {} loadedVars .any (pre ++ o :: post) x errors = .ok (some (o, x), 0) ∧
    cfGet {} loadedVars (pre ++ o :: post) x = .ok (some (o, x), 0) := by
  have hl := vars_lookup x spec hx
  have hs : searchNameAll {} .any (pre ++ o :: post) x spec = .ok [(o, x)] :=
    search_told (asKnown x spec) (asKnown_plain x spec hx) pre post o spec (asKnown_crits x spec hx)
      (fun y hy => ⟨ht y hy, fun h => absurd rfl h, fun h => absurd rfl h⟩) hu ho
  have hn : ∀ e : EMode, searchName {} loadedVars .any (pre ++ o :: post) x e = .ok (some (o, x), 0) := by
    intro e
    unfold searchName
    rw [hl]
    dsimp only
    rw [hs]
    cases e <;> rfl
  refine ⟨?_, hn errors, hn .ignore⟩
  unfold specsSearch
  show (specsLoop {} loadedTwo ⟨some (pre ++ o :: post), coords⟩ .any x [true, false]).bind _ = _
  unfold specsLoop
  have h2 : searchName {} (loadedTwo.cat true) .any ((⟨some (pre ++ o :: post), coords⟩ : DSA).objs true) x .ignore = .ok (some (o, x), 0) := hn .ignore
  rw [h2]
  rfl

/-- **C182** (not found): when nothing tells that a data variable of a dataset is `x`, `search(ds, x)` and `search_data_var(ds, x)` raise with `errors="raise"`, warn once and give nothing with
`errors="warn"`, and give nothing with `errors="ignore"`, as `get(ds, x)` does; for `search`, `x` is not one of the three data variables that are also coordinates. -/
theorem C182_missing (x : Str) (spec : CfSpec) (hx : (x, spec) ∈ loadedVars) (vars coords : List DObj)
    (ht : ∀ y ∈ vars, TextOrNone y "standard_name".toList) (hu : ∀ y ∈ vars, Untold (asKnown x spec) y) :
    searchName {} loadedVars .any vars x .raise = .error .notFound ∧ searchName {} loadedVars .any vars x .warn = .ok (none, 1) ∧
    searchName {} loadedVars .any vars x .ignore = .ok (none, 0) ∧ cfGet {} loadedVars vars x = .ok (none, 0) ∧
    (x ∉ alsoCoords → specsSearch {} loadedTwo ⟨some vars, coords⟩ .any x .raise = .error .notFound ∧
      specsSearch {} loadedTwo ⟨some vars, coords⟩ .any x .warn = .ok (none, 1) ∧ specsSearch {} loadedTwo ⟨some vars, coords⟩ .any x .ignore = .ok (none, 0)) := by
  have hl := vars_lookup x spec hx
  have hs : searchNameAll {} .any vars x spec = .ok [] :=
    search_untold (asKnown x spec) (asKnown_plain x spec hx) vars spec (fun c hc => (asKnown_crits x spec hx c).1 hc)
      (fun y hy => ⟨ht y hy, fun h => absurd rfl h, fun h => absurd rfl h⟩) hu
  have hn : ∀ e : EMode, searchName {} loadedVars .any vars x e = searchEnd e [] := by
    intro e
    unfold searchName
    rw [hl]
    dsimp only
    rw [hs]
    rfl
  refine ⟨hn _, hn _, hn _, hn _, ?_⟩
  intro hc
  have hcl : lookupS x loadedCoords = none := by
    rw [loadedVars_eq] at hx
    rw [loadedCoords_eq]
    have := List.all_eq_true.1 vars_coords _ hx
    simp only [Bool.or_eq_true, List.contains_iff_mem, Option.isNone_iff_eq_none] at this
    exact this.resolve_left hc
  have hv : FoundIn {} loadedTwo ⟨some vars, coords⟩ true .any x none := Or.inr ⟨spec, [], hl, hs, rfl⟩
  have hcf : FoundIn {} loadedTwo ⟨some vars, coords⟩ false .any x none := Or.inl ⟨hcl, rfl⟩
  exact ⟨(C65_search {} loadedTwo _ .any x .raise none none hv hcf).2.2.2 rfl rfl, (C65_search {} loadedTwo _ .any x .warn none none hv hcf).2.2.1 rfl rfl,
    (C65_search {} loadedTwo _ .any x .ignore none none hv hcf).2.1 rfl rfl⟩

/-- decidable form of `Untold` for a data variable -/
def untoldB (x : Str) (spec : CfSpec) (nm : Str) (std : Option Str) : Bool :=
  (x :: spec.names).all (fun n => lower nm != n && lower (strip nm) != n && !((n ++ "_".toList).isPrefixOf (lower nm))) &&
  std.all fun s => (stdsOf spec).all fun v => lower s != v && lower (strip s) != v && !((v ++ "_at_".toList).isPrefixOf (lower s))

theorem untoldB_untold (x : Str) (spec : CfSpec) (n : String) (attrs : List (Str × Str)) (h : untoldB x spec n.toList (lookupS "standard_name".toList attrs) = true) :
    Untold (asKnown x spec) (exObj n attrs) := by
  unfold untoldB at h
  simp only [Bool.and_eq_true, List.all_eq_true, bne_iff_ne, Bool.not_eq_true'] at h
  obtain ⟨h1, h2⟩ := h
  refine ⟨?_, ?_, ?_, ?_⟩
  · intro s hs m hm
    have : s = n.toList := (Option.some.inj hs).symm
    subst this
    obtain ⟨⟨a, b⟩, c⟩ := h1 m hm
    refine ⟨a, b, fun hp => ?_⟩
    rw [List.isPrefixOf_iff_prefix.2 hp] at c
    cases c
  · intro s hs v hv
    have hs' : (lookupS "standard_name".toList attrs).map AVal.str = some (.str s) := hs
    cases hl : lookupS "standard_name".toList attrs with
    | none => rw [hl] at hs'; cases hs'
    | some t =>
      rw [hl] at hs' h2
      simp only [Option.map_some, Option.some.injEq, AVal.str.injEq] at hs'
      subst hs'
      simp only [Option.all_some, List.all_eq_true, Bool.and_eq_true, bne_iff_ne, Bool.not_eq_true'] at h2
      obtain ⟨⟨a, b⟩, c⟩ := h2 v hv
      refine ⟨a, b, fun hp => ?_⟩
      rw [List.isPrefixOf_iff_prefix.2 hp] at c
      cases c
  · intro s _ h
    cases h
  · intro s a _ h
    cases h

/-- a case: `TEMP_t` is told to be the temperature `temp`, and `salt` and `u`, with their standard names, are not -/
example : ∃ spec, ("temp".toList, spec) ∈ loadedVars ∧ Told (asKnown "temp".toList spec) (exObj "TEMP_t" []) ∧
    ∀ y ∈ [exObj "salt" [("standard_name".toList, "sea_water_salinity".toList)], exObj "u" [("standard_name".toList, "sea_water_x_velocity_at_u_location".toList)]],
      Untold (asKnown "temp".toList spec) y := by
  have h : (builtinVars.any fun p => p.1 == "temp".toList && untoldB p.1 p.2 "salt".toList (some "sea_water_salinity".toList) &&
      untoldB p.1 p.2 "u".toList (some "sea_water_x_velocity_at_u_location".toList)) = true := by decide +kernel
  obtain ⟨⟨x, spec⟩, hm, h⟩ := List.any_eq_true.1 h
  simp only [Bool.and_eq_true, beq_iff_eq] at h
  obtain ⟨⟨rfl, h1⟩, h2⟩ := h
  refine ⟨spec, by rw [loadedVars_eq]; exact hm, Or.inl ⟨_, rfl, "temp".toList, List.mem_cons_self, Or.inr ⟨"t".toList, ⟨by decide, by decide⟩, by decide⟩⟩, ?_⟩
  intro y hy
  simp only [List.mem_cons, List.not_mem_nil, or_false] at hy
  rcases hy with rfl | rfl
  · exact untoldB_untold _ _ _ _ h1
  · exact untoldB_untold _ _ _ _ h2

end Xoa
