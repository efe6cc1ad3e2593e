import Verif.CfBuiltinCats
import Verif.CfMatchProps
import Verif.SGLocProps

/-!
# Recognition of arrays with the built-in CF specifications
-/

set_option maxRecDepth 20000

namespace Xoa

/-! ### matching by name and standard name in closed form -/

/-- the standard names of an item -/
def stdsOf (s : CfSpec) : List Str :=
  match lookupS "standard_name".toList s.attrs with
  | some (.list l) => l
  | _ => []

/-- a text (in lower case) matches one of the references -/
def hit (a : SGAttr) (refs : List Str) (t : Str) : Bool :=
  refs.any fun r => lower (parseAttr {} a t).1 == lower r || (!t.isEmpty && !r.isEmpty && strip t == lower (strip r))

theorem hit_iff (attr : Str) (a : SGAttr) (ha : sgAttrOf attr = some a) (refs : List Str) (v : Str) :
    hit a refs (lower v) = true ↔ ∃ ref ∈ refs, RefMatches {} .any attr v ref := by
  unfold hit
  rw [List.any_eq_true]
  have hne : ∀ s : Str, (!s.isEmpty) = true ↔ s ≠ [] := by intro s; cases s <;> simp
  have hl : lower v ≠ [] ↔ v ≠ [] := by cases v <;> simp [lower]
  refine exists_congr fun r => and_congr_right fun _ => ?_
  unfold RefMatches
  simp only [Bool.or_eq_true, Bool.and_eq_true, beq_iff_eq, hne, hl, strip_lower, ha, Option.some.injEq, exists_eq_left', and_true]
  constructor
  · rintro (h | ⟨⟨h1, h2⟩, h3⟩)
    · exact Or.inr h
    · exact Or.inl ⟨h1, h2, h3⟩
  · rintro (⟨h1, h2, h3⟩ | h)
    · exact Or.inr ⟨⟨h1, h2⟩, h3⟩
    · exact Or.inl h

/-- the criteria of an item are its names, its standard names, and perhaps the axis and the units -/
def plainCrits (p : Str × CfSpec) : Bool :=
  ((orderedCrits p.1 p.2).all fun c => c == ("name".toList, .list (p.1 :: p.2.names)) || c == ("standard_name".toList, .list (stdsOf p.2)) ||
    c.1 == "axis".toList || c.1 == "units".toList) &&
  (orderedCrits p.1 p.2).contains ("name".toList, .list (p.1 :: p.2.names)) &&
  (orderedCrits p.1 p.2).contains ("standard_name".toList, .list (stdsOf p.2))

/-- the axis and the units are not criteria of an item -/
def noAxisUnits (p : Str × CfSpec) : Bool := (orderedCrits p.1 p.2).all fun c => c.1 != "axis".toList && c.1 != "units".toList

/-- an item is recognised from the standard name or the name, both in lower case -/
def hits (std nm : Option Str) (p : Str × CfSpec) : Bool :=
  std.any (hit .standardName (stdsOf p.2)) || nm.any (hit .name (p.1 :: p.2.names))

/-- the text of an attribute that may be missing -/
def textAttr (da : DObj) (a : Str) : Option Str :=
  match da.get a with
  | some (.str s) => some s
  | _ => none

/-- the attribute is missing or a text -/
def TextOrNone (da : DObj) (a : Str) : Prop := da.get a = none ∨ ∃ s, da.get a = some (.str s)

theorem matchCrits_hits (da : DObj) (p : Str × CfSpec) (hp : plainCrits p = true) (hs : TextOrNone da "standard_name".toList)
    (hau : ∀ c ∈ orderedCrits p.1 p.2, c.1 = "axis".toList ∨ c.1 = "units".toList →
      da.get c.1 = none ∨ c.2 ≠ .none_ ∧ (∃ t, da.get c.1 = some (.str t)) ∧ ¬ Satisfies {} .any da c) :
    matchCrits {} .any da (orderedCrits p.1 p.2) = .ok (hits ((textAttr da "standard_name".toList).map lower) (da.name.map lower) p) := by
  simp only [plainCrits, Bool.and_eq_true, List.all_eq_true, Bool.or_eq_true, beq_iff_eq] at hp
  obtain ⟨⟨hall, hcn⟩, hcs⟩ := hp
  have hcn' := List.contains_iff_mem.1 hcn
  have hcs' := List.contains_iff_mem.1 hcs
  have hget : da.get "name".toList = da.name.map AVal.str := by simp [DObj.get]
  have hno : ∀ c ∈ orderedCrits p.1 p.2, c.1 = "axis".toList ∨ c.1 = "units".toList → ¬ Satisfies {} .any da c := by
    intro c hc h
    rcases hau c hc h with hn | hn
    · rintro ⟨v, hv, _⟩
      rw [hn] at hv; cases hv
    · exact hn.2.2
  obtain ⟨b, hb⟩ := C44_match_total_partial {} .any da (orderedCrits p.1 p.2) (by simp) (by
    intro c hc
    rcases hall c hc with ((h | h) | h) | h
    · rw [h]
      show da.get "name".toList = none ∨ _
      rw [hget]
      cases da.name with
      | none => left; rfl
      | some s => right; exact ⟨by simp, Or.inl ⟨s, rfl⟩⟩
    · rw [h]
      rcases hs with hs | hs
      · left; exact hs
      · right; exact ⟨by simp, Or.inl hs⟩
    · rcases hau c hc (Or.inl h) with hn | hn
      · exact Or.inl hn
      · exact Or.inr ⟨hn.1, Or.inl hn.2.1⟩
    · rcases hau c hc (Or.inr h) with hn | hn
      · exact Or.inl hn
      · exact Or.inr ⟨hn.1, Or.inl hn.2.1⟩)
  rw [hb]
  have hiff := matchCrits_iff {} .any da _ b hb
  congr 1
  rw [Bool.eq_iff_iff, hiff]
  unfold hits
  rw [Bool.or_eq_true]
  have hstd : (((textAttr da "standard_name".toList).map lower).any (hit .standardName (stdsOf p.2)) = true) ↔
      Satisfies {} .any da ("standard_name".toList, .list (stdsOf p.2)) := by
    unfold Satisfies textAttr
    rcases hs with hs | ⟨s, hs⟩
    · rw [hs]; simp
    · rw [hs]
      simp only [Option.map_some, Option.any_some, Refs.all]
      rw [hit_iff "standard_name".toList .standardName (by decide)]
      simp
  have hnm : ((da.name.map lower).any (hit .name (p.1 :: p.2.names)) = true) ↔
      Satisfies {} .any da ("name".toList, .list (p.1 :: p.2.names)) := by
    unfold Satisfies
    rw [show da.get ("name".toList, Refs.list (p.1 :: p.2.names)).1 = da.name.map AVal.str from hget]
    cases da.name with
    | none => simp
    | some s =>
      simp only [Option.map_some, Option.any_some, Refs.all]
      rw [hit_iff "name".toList .name (by decide)]
      simp
  rw [hstd, hnm]
  constructor
  · rintro ⟨c, hc, hsat⟩
    rcases hall c hc with ((h | h) | h) | h
    · right; rw [← h]; exact hsat
    · left; rw [← h]; exact hsat
    · exact absurd hsat (hno c hc (Or.inl h))
    · exact absurd hsat (hno c hc (Or.inr h))
  · rintro (h | h)
    · exact ⟨_, hcs', h⟩
    · exact ⟨_, hcn', h⟩

theorem matchAnyIn_find (da : DObj) (test : Str × CfSpec → Bool) (cat : CfCat)
    (h : ∀ p ∈ cat, matchCrits {} .any da (orderedCrits p.1 p.2) = .ok (test p)) :
    matchAnyIn {} .any da cat = .ok ((cat.find? test).map Prod.fst) := by
  induction cat with
  | nil => rfl
  | cons p rest ih =>
    obtain ⟨n, spec⟩ := p
    unfold matchAnyIn
    rw [h (n, spec) (List.mem_cons_self ..)]
    simp only [Except.bind]
    rw [List.find?_cons]
    cases test (n, spec) with
    | true => rfl
    | false => exact ih fun p hp => h p (List.mem_cons_of_mem _ hp)

/-- the built-in data variables -/
abbrev loadedVars : CfCat := catLoaded cVars builtinLoaded
/-- the built-in coordinates -/
abbrev loadedCoords : CfCat := catLoaded cCoords builtinLoaded

theorem loadedVars_eq : loadedVars = builtinVars := builtin_loaded.2.1
theorem loadedCoords_eq : loadedCoords = builtinCoords := builtin_loaded.2.2.1

theorem vars_plain : (builtinVars.all fun p => plainCrits p && noAxisUnits p) = true := by decide +kernel

theorem coords_plain : (builtinCoords.all plainCrits) = true := by decide +kernel

theorem matchVars (da : DObj) (hs : TextOrNone da "standard_name".toList) :
    matchAny {} loadedVars .any da =
      .ok ((builtinVars.find? (hits ((textAttr da "standard_name".toList).map lower) (da.name.map lower))).map Prod.fst) := by
  rw [loadedVars_eq]
  apply matchAnyIn_find
  intro p hp
  have h := List.all_eq_true.1 vars_plain p hp
  rw [Bool.and_eq_true] at h
  refine matchCrits_hits da p h.1 hs fun c hc hcau => ?_
  exfalso
  have h2 := h.2
  simp only [noAxisUnits, List.all_eq_true, Bool.and_eq_true, bne_iff_ne] at h2
  rcases hcau with hcau | hcau
  · exact (h2 c hc).1 hcau
  · exact (h2 c hc).2 hcau

theorem matchCoords (da : DObj) (hs : TextOrNone da "standard_name".toList) (ha : da.get "axis".toList = none) (hu : da.get "units".toList = none) :
    matchAny {} loadedCoords .any da =
      .ok ((builtinCoords.find? (hits ((textAttr da "standard_name".toList).map lower) (da.name.map lower))).map Prod.fst) := by
  rw [loadedCoords_eq]
  apply matchAnyIn_find
  intro p hp
  refine matchCrits_hits da p (List.all_eq_true.1 coords_plain p hp) hs fun c hc hcau => ?_
  rcases hcau with hcau | hcau
  · rw [hcau]; exact Or.inl ha
  · rw [hcau]; exact Or.inl hu


/-! ### located names -/

theorem strip_no_space (s : Str) (h : ∀ c ∈ s, isSpace c = false) : strip s = s := by
  have hd : ∀ l : Str, (∀ c ∈ l, isSpace c = false) → l.dropWhile isSpace = l := by
    intro l hl
    cases l with
    | nil => rfl
    | cons c l => rw [List.dropWhile_cons, hl c (List.mem_cons_self ..)]; rfl
  unfold strip lstrip rstrip
  rw [hd s h, hd _ (by intro c hc; exact h c (List.mem_reverse.1 hc)), List.reverse_reverse]

theorem isWord_not_space (c : Char) (h : isWord c = true) : isSpace c = false := by
  cases hs : isSpace c with
  | false => rfl
  | true =>
    exfalso
    have hc : c = ' ' ∨ c = '\t' ∨ c = '\n' ∨ c = '\r' ∨ c = '\x0b' ∨ c = '\x0c' := by
      simpa [isSpace, or_assoc] using hs
    rcases hc with rfl | rfl | rfl | rfl | rfl | rfl <;> revert h <;> decide

theorem isAlpha_isWord (c : Char) (h : c.isAlpha = true) : isWord c = true := by
  simp [isWord, Char.isAlphanum, h]

/-- the first item with a reference equal to a root -/
def rootIn (g : Str × CfSpec → List Str) (cat : CfCat) (v : Str) : Option Str :=
  (cat.find? fun p => (g p).any fun r => lower v == lower r).map Prod.fst

/-- the first item that a text matches -/
def textIn (a : SGAttr) (g : Str × CfSpec → List Str) (cat : CfCat) (t : Str) : Option Str :=
  (cat.find? fun p => hit a (g p) t).map Prod.fst

/-- the reference `v` of item `x` is safe: its text, its root and the references that add a location to it all give `x` -/
def safeRef (a : SGAttr) (g : Str × CfSpec → List Str) (cat : CfCat) (locs : List Str) (x v : Str) : Bool :=
  textIn a g cat v == some x && (rootIn g cat v == some x && locs.all fun r => (parseAttr {} a r).1 != v || textIn a g cat r == some x)

/-- the references are words in lower case, and those which have a location are in the list -/
def cleanRefs (a : SGAttr) (g : Str × CfSpec → List Str) (cat : CfCat) (locs : List Str) : Bool :=
  cat.all fun p => (g p).all fun r => lower (strip r) == r && !r.isEmpty && (r.all isWord) && ((parseAttr {} a r).2.isNone || locs.contains r)

theorem sg0_regular : SG.regular {} := ⟨by decide, by decide, rfl, by simp⟩

theorem find_same {α : Type} (f g : α → Bool) (l : List α) (h : ∀ p ∈ l, f p = g p) : l.find? f = l.find? g := by
  induction l with
  | nil => rfl
  | cons p rest ih =>
    rw [List.find?_cons, List.find?_cons, h p (List.mem_cons_self ..)]
    cases g p with
    | true => rfl
    | false => exact ih fun q hq => h q (List.mem_cons_of_mem _ hq)

/-- a text with root `v` and a location, when `v` is a safe reference of `x`, is first matched by `x` -/
theorem located_in (a : SGAttr) (ha : a ≠ .longName) (g : Str × CfSpec → List Str) (cat : CfCat) (locs : List Str) (x v l : Str)
    (hc : cleanRefs a g cat locs = true) (hv : isRoot a v) (hs : safeRef a g cat locs x v = true) (hl : isLoc l) :
    textIn a g cat (fmt (SG.format {} a) v l) = some x := by
  have hpre : SG.noPrefix {} l := by intro m hm; simp at hm
  have hp := C38_round_trip {} sg0_regular a v l hv hl (Or.inl rfl) (fun _ => hpre)
  have hword : ∀ c ∈ fmt (SG.format {} a) v l, isSpace c = false := by
    have hv' : ∀ c ∈ v, isSpace c = false := by
      intro c hcv
      rcases hv.2 c hcv with h | h
      · exact isWord_not_space c h
      · exact absurd h.1 ha
    have hl' : ∀ c ∈ l, isSpace c = false := fun c hcl => isWord_not_space c (isAlpha_isWord c (hl.2 c hcl))
    intro c hcm
    cases a with
    | longName => exact absurd rfl ha
    | name =>
      simp only [fmt, SG.format, List.nil_append, List.append_nil, List.mem_append] at hcm
      rcases hcm with (h | h) | h
      · exact hv' c h
      · have : c = '_' := by simpa using h
        rw [this]; decide
      · exact hl' c h
    | standardName =>
      simp only [fmt, SG.format, List.nil_append, List.mem_append] at hcm
      rcases hcm with ((h | h) | h) | h
      · exact hv' c h
      · revert c; decide
      · exact hl' c h
      · revert c; decide
  have hst : strip (fmt (SG.format {} a) v l) = fmt (SG.format {} a) v l := strip_no_space _ hword
  simp only [safeRef, Bool.and_eq_true, beq_iff_eq, List.all_eq_true, Bool.or_eq_true, bne_iff_ne] at hs
  obtain ⟨_, hroot, hlocs⟩ := hs
  simp only [cleanRefs, List.all_eq_true, Bool.and_eq_true, beq_iff_eq, Bool.or_eq_true] at hc
  generalize hT : fmt (SG.format {} a) v l = T at *
  by_cases hex : ∃ p ∈ cat, ∃ r ∈ g p, T = lower (strip r)
  · obtain ⟨p, hpc, r, hr, hTr⟩ := hex
    obtain ⟨⟨⟨hlr, _⟩, _⟩, hloc⟩ := hc p hpc r hr
    rw [hlr] at hTr
    have hsome : (parseAttr {} a r).2.isNone = false := by rw [← hTr, hp]; rfl
    rw [hsome] at hloc
    have hmem := List.contains_iff_mem.1 (hloc.resolve_left (by simp))
    rcases hlocs r hmem with h | h
    · rw [← hTr, hp] at h; exact absurd rfl h
    · rw [hTr]; exact h
  · push Not at hex
    rw [← hroot]
    unfold textIn rootIn
    congr 1
    have hcongr : ∀ p ∈ cat, hit a (g p) T = (g p).any fun r => lower v == lower r := by
      intro p hpc
      unfold hit
      rw [hp, hst]
      rw [Bool.eq_iff_iff, List.any_eq_true, List.any_eq_true]
      refine exists_congr fun r => and_congr_right fun hr => ?_
      have hne := hex p hpc r hr
      have : (T == lower (strip r)) = false := by simpa using hne
      simp [this]
    exact find_same _ _ cat hcongr

/-- the name and the alternative names of an item -/
abbrev allNames (p : Str × CfSpec) : List Str := p.1 :: p.2.names
/-- the standard names of an item -/
abbrev allStds (p : Str × CfSpec) : List Str := stdsOf p.2

/-! ### data variables by name -/

/-- (item, one of its names, the item that arrays with this name are recognised as) -/
def varNamesTaken : List (Str × Str × Str) := [
  -- sigma0, sigma0, pdens
  (['s', 'i', 'g', 'm', 'a', '0'], ['s', 'i', 'g', 'm', 'a', '0'], ['p', 'd', 'e', 'n', 's']),
  -- u3d, u3d, u
  (['u', '3', 'd'], ['u', '3', 'd'], ['u']),
  -- u3d, uz, u
  (['u', '3', 'd'], ['u', 'z'], ['u']),
  -- v3d, v3d, v
  (['v', '3', 'd'], ['v', '3', 'd'], ['v']),
  -- v3d, vz, v
  (['v', '3', 'd'], ['v', 'z'], ['v']),
  -- w3d, w3d, w
  (['w', '3', 'd'], ['w', '3', 'd'], ['w']),
  -- w3d, wz, w
  (['w', '3', 'd'], ['w', 'z'], ['w']),
  -- ubt, u, u
  (['u', 'b', 't'], ['u'], ['u']),
  -- vbt, v, v
  (['v', 'b', 't'], ['v'], ['v']),
  -- ubc, u, u
  (['u', 'b', 'c'], ['u'], ['u']),
  -- vbc, v, v
  (['v', 'b', 'c'], ['v'], ['v']),
  -- hu2m, q2m, q2m
  (['h', 'u', '2', 'm'], ['q', '2', 'm'], ['q', '2', 'm']),
  -- tair, temp, temp
  (['t', 'a', 'i', 'r'], ['t', 'e', 'm', 'p'], ['t', 'e', 'm', 'p']),
  -- char, cha, cha
  (['c', 'h', 'a', 'r'], ['c', 'h', 'a'], ['c', 'h', 'a']),
  -- wlv, wlv, ssh
  (['w', 'l', 'v'], ['w', 'l', 'v'], ['s', 's', 'h'])]

/-- (item, one of its standard names, the item that arrays with this standard name are recognised as) -/
def varStdsTaken : List (Str × Str × Str) := [
  -- temp, sea_water_potential_temperature, ptemp
  (['t', 'e', 'm', 'p'], ['s', 'e', 'a', '_', 'w', 'a', 't', 'e', 'r', '_', 'p', 'o', 't', 'e', 'n', 't', 'i', 'a', 'l', '_', 't', 'e', 'm', 'p', 'e', 'r', 'a', 't', 'u', 'r', 'e'], ['p', 't', 'e', 'm', 'p']),
  -- sigma0, sea_water_potential_density, pdens
  (['s', 'i', 'g', 'm', 'a', '0'], ['s', 'e', 'a', '_', 'w', 'a', 't', 'e', 'r', '_', 'p', 'o', 't', 'e', 'n', 't', 'i', 'a', 'l', '_', 'd', 'e', 'n', 's', 'i', 't', 'y'], ['p', 'd', 'e', 'n', 's']),
  -- sigma1, sea_water_potential_density, pdens
  (['s', 'i', 'g', 'm', 'a', '1'], ['s', 'e', 'a', '_', 'w', 'a', 't', 'e', 'r', '_', 'p', 'o', 't', 'e', 'n', 't', 'i', 'a', 'l', '_', 'd', 'e', 'n', 's', 'i', 't', 'y'], ['p', 'd', 'e', 'n', 's']),
  -- sigma2, sea_water_potential_density, pdens
  (['s', 'i', 'g', 'm', 'a', '2'], ['s', 'e', 'a', '_', 'w', 'a', 't', 'e', 'r', '_', 'p', 'o', 't', 'e', 'n', 't', 'i', 'a', 'l', '_', 'd', 'e', 'n', 's', 'i', 't', 'y'], ['p', 'd', 'e', 'n', 's']),
  -- sigma3, sea_water_potential_density, pdens
  (['s', 'i', 'g', 'm', 'a', '3'], ['s', 'e', 'a', '_', 'w', 'a', 't', 'e', 'r', '_', 'p', 'o', 't', 'e', 'n', 't', 'i', 'a', 'l', '_', 'd', 'e', 'n', 's', 'i', 't', 'y'], ['p', 'd', 'e', 'n', 's']),
  -- sigma4, sea_water_potential_density, pdens
  (['s', 'i', 'g', 'm', 'a', '4'], ['s', 'e', 'a', '_', 'w', 'a', 't', 'e', 'r', '_', 'p', 'o', 't', 'e', 'n', 't', 'i', 'a', 'l', '_', 'd', 'e', 'n', 's', 'i', 't', 'y'], ['p', 'd', 'e', 'n', 's']),
  -- u3d, sea_water_x_velocity, u
  (['u', '3', 'd'], ['s', 'e', 'a', '_', 'w', 'a', 't', 'e', 'r', '_', 'x', '_', 'v', 'e', 'l', 'o', 'c', 'i', 't', 'y'], ['u']),
  -- v3d, sea_water_y_velocity, v
  (['v', '3', 'd'], ['s', 'e', 'a', '_', 'w', 'a', 't', 'e', 'r', '_', 'y', '_', 'v', 'e', 'l', 'o', 'c', 'i', 't', 'y'], ['v']),
  -- w3d, sea_water_z_velocity_at_w_location, w
  (['w', '3', 'd'], ['s', 'e', 'a', '_', 'w', 'a', 't', 'e', 'r', '_', 'z', '_', 'v', 'e', 'l', 'o', 'c', 'i', 't', 'y', '_', 'a', 't', '_', 'w', '_', 'l', 'o', 'c', 'a', 't', 'i', 'o', 'n'], ['w']),
  -- w3d, sea_water_z_velocity, w
  (['w', '3', 'd'], ['s', 'e', 'a', '_', 'w', 'a', 't', 'e', 'r', '_', 'z', '_', 'v', 'e', 'l', 'o', 'c', 'i', 't', 'y'], ['w']),
  -- speed, sea_water_speed, cspd
  (['s', 'p', 'e', 'e', 'd'], ['s', 'e', 'a', '_', 'w', 'a', 't', 'e', 'r', '_', 's', 'p', 'e', 'e', 'd'], ['c', 's', 'p', 'd']),
  -- dlon, cell_x_size, dx
  (['d', 'l', 'o', 'n'], ['c', 'e', 'l', 'l', '_', 'x', '_', 's', 'i', 'z', 'e'], ['d', 'x']),
  -- dlat, cell_y_size, dy
  (['d', 'l', 'a', 't'], ['c', 'e', 'l', 'l', '_', 'y', '_', 's', 'i', 'z', 'e'], ['d', 'y']),
  -- wfdir, wind_from_direction, wdir
  (['w', 'f', 'd', 'i', 'r'], ['w', 'i', 'n', 'd', '_', 'f', 'r', 'o', 'm', '_', 'd', 'i', 'r', 'e', 'c', 't', 'i', 'o', 'n'], ['w', 'd', 'i', 'r']),
  -- wtdir, wind_to_direction, wdir
  (['w', 't', 'd', 'i', 'r'], ['w', 'i', 'n', 'd', '_', 't', 'o', '_', 'd', 'i', 'r', 'e', 'c', 't', 'i', 'o', 'n'], ['w', 'd', 'i', 'r']),
  -- u10m, x_wind, uair
  (['u', '1', '0', 'm'], ['x', '_', 'w', 'i', 'n', 'd'], ['u', 'a', 'i', 'r']),
  -- u10m, x_wind_at_u_location, uair
  (['u', '1', '0', 'm'], ['x', '_', 'w', 'i', 'n', 'd', '_', 'a', 't', '_', 'u', '_', 'l', 'o', 'c', 'a', 't', 'i', 'o', 'n'], ['u', 'a', 'i', 'r']),
  -- u10m, eastward_wind, uair
  (['u', '1', '0', 'm'], ['e', 'a', 's', 't', 'w', 'a', 'r', 'd', '_', 'w', 'i', 'n', 'd'], ['u', 'a', 'i', 'r']),
  -- v10m, y_wind, vair
  (['v', '1', '0', 'm'], ['y', '_', 'w', 'i', 'n', 'd'], ['v', 'a', 'i', 'r']),
  -- v10m, y_wind_at_v_location, vair
  (['v', '1', '0', 'm'], ['y', '_', 'w', 'i', 'n', 'd', '_', 'a', 't', '_', 'v', '_', 'l', 'o', 'c', 'a', 't', 'i', 'o', 'n'], ['v', 'a', 'i', 'r']),
  -- v10m, northward_wind, vair
  (['v', '1', '0', 'm'], ['n', 'o', 'r', 't', 'h', 'w', 'a', 'r', 'd', '_', 'w', 'i', 'n', 'd'], ['v', 'a', 'i', 'r']),
  -- ux10m, x_wind_at_10m, u10m
  (['u', 'x', '1', '0', 'm'], ['x', '_', 'w', 'i', 'n', 'd', '_', 'a', 't', '_', '1', '0', 'm'], ['u', '1', '0', 'm']),
  -- ux10m, x_wind, uair
  (['u', 'x', '1', '0', 'm'], ['x', '_', 'w', 'i', 'n', 'd'], ['u', 'a', 'i', 'r']),
  -- ux10m, x_wind_at_u_location, uair
  (['u', 'x', '1', '0', 'm'], ['x', '_', 'w', 'i', 'n', 'd', '_', 'a', 't', '_', 'u', '_', 'l', 'o', 'c', 'a', 't', 'i', 'o', 'n'], ['u', 'a', 'i', 'r']),
  -- ux10m, x_wind_at_10m_at_u_location, u10m
  (['u', 'x', '1', '0', 'm'], ['x', '_', 'w', 'i', 'n', 'd', '_', 'a', 't', '_', '1', '0', 'm', '_', 'a', 't', '_', 'u', '_', 'l', 'o', 'c', 'a', 't', 'i', 'o', 'n'], ['u', '1', '0', 'm']),
  -- vy10m, y_wind_at_10m, v10m
  (['v', 'y', '1', '0', 'm'], ['y', '_', 'w', 'i', 'n', 'd', '_', 'a', 't', '_', '1', '0', 'm'], ['v', '1', '0', 'm']),
  -- vy10m, y_wind, vair
  (['v', 'y', '1', '0', 'm'], ['y', '_', 'w', 'i', 'n', 'd'], ['v', 'a', 'i', 'r']),
  -- vy10m, y_wind_at_v_location, vair
  (['v', 'y', '1', '0', 'm'], ['y', '_', 'w', 'i', 'n', 'd', '_', 'a', 't', '_', 'v', '_', 'l', 'o', 'c', 'a', 't', 'i', 'o', 'n'], ['v', 'a', 'i', 'r']),
  -- vy10m, y_wind_at_10m_at_v_location, v10m
  (['v', 'y', '1', '0', 'm'], ['y', '_', 'w', 'i', 'n', 'd', '_', 'a', 't', '_', '1', '0', 'm', '_', 'a', 't', '_', 'v', '_', 'l', 'o', 'c', 'a', 't', 'i', 'o', 'n'], ['v', '1', '0', 'm']),
  -- taux, surface_downward_x_stress, tauu
  (['t', 'a', 'u', 'x'], ['s', 'u', 'r', 'f', 'a', 'c', 'e', '_', 'd', 'o', 'w', 'n', 'w', 'a', 'r', 'd', '_', 'x', '_', 's', 't', 'r', 'e', 's', 's'], ['t', 'a', 'u', 'u']),
  -- taux, surface_downward_x_stress_at_u_location, tauu
  (['t', 'a', 'u', 'x'], ['s', 'u', 'r', 'f', 'a', 'c', 'e', '_', 'd', 'o', 'w', 'n', 'w', 'a', 'r', 'd', '_', 'x', '_', 's', 't', 'r', 'e', 's', 's', '_', 'a', 't', '_', 'u', '_', 'l', 'o', 'c', 'a', 't', 'i', 'o', 'n'], ['t', 'a', 'u', 'u']),
  -- tauy, surface_downward_y_stress, tauv
  (['t', 'a', 'u', 'y'], ['s', 'u', 'r', 'f', 'a', 'c', 'e', '_', 'd', 'o', 'w', 'n', 'w', 'a', 'r', 'd', '_', 'y', '_', 's', 't', 'r', 'e', 's', 's'], ['t', 'a', 'u', 'v']),
  -- tauy, surface_downward_y_stress_at_v_location, tauv
  (['t', 'a', 'u', 'y'], ['s', 'u', 'r', 'f', 'a', 'c', 'e', '_', 'd', 'o', 'w', 'n', 'w', 'a', 'r', 'd', '_', 'y', '_', 's', 't', 'r', 'e', 's', 's', '_', 'a', 't', '_', 'v', '_', 'l', 'o', 'c', 'a', 't', 'i', 'o', 'n'], ['t', 'a', 'u', 'v']),
  -- vtwo, northward_wave_to_ocean_stress, utwo
  (['v', 't', 'w', 'o'], ['n', 'o', 'r', 't', 'h', 'w', 'a', 'r', 'd', '_', 'w', 'a', 'v', 'e', '_', 't', 'o', '_', 'o', 'c', 'e', 'a', 'n', '_', 's', 't', 'r', 'e', 's', 's'], ['u', 't', 'w', 'o'])]

/-- (coordinate, one of its names, the coordinate that arrays with this name are recognised as) -/
def coordNamesTaken : List (Str × Str × Str) := [
  -- level, s_level, sig
  (['l', 'e', 'v', 'e', 'l'], ['s', '_', 'l', 'e', 'v', 'e', 'l'], ['s', 'i', 'g']),
  -- level, sigma, sig
  (['l', 'e', 'v', 'e', 'l'], ['s', 'i', 'g', 'm', 'a'], ['s', 'i', 'g']),
  -- level, s, sig
  (['l', 'e', 'v', 'e', 'l'], ['s'], ['s', 'i', 'g']),
  -- level, sigma_level, sig
  (['l', 'e', 'v', 'e', 'l'], ['s', 'i', 'g', 'm', 'a', '_', 'l', 'e', 'v', 'e', 'l'], ['s', 'i', 'g'])]

/-- (coordinate, one of its standard names, the coordinate that arrays with this standard name are recognised as) -/
def coordStdsTaken : List (Str × Str × Str) := [
  -- level, ocean_sigma_coordinate, sig
  (['l', 'e', 'v', 'e', 'l'], ['o', 'c', 'e', 'a', 'n', '_', 's', 'i', 'g', 'm', 'a', '_', 'c', 'o', 'o', 'r', 'd', 'i', 'n', 'a', 't', 'e'], ['s', 'i', 'g']),
  -- level, ocean_s_coordinate, sig
  (['l', 'e', 'v', 'e', 'l'], ['o', 'c', 'e', 'a', 'n', '_', 's', '_', 'c', 'o', 'o', 'r', 'd', 'i', 'n', 'a', 't', 'e'], ['s', 'i', 'g']),
  -- level, atmosphere_sigma_coordinate, sig
  (['l', 'e', 'v', 'e', 'l'], ['a', 't', 'm', 'o', 's', 'p', 'h', 'e', 'r', 'e', '_', 's', 'i', 'g', 'm', 'a', '_', 'c', 'o', 'o', 'r', 'd', 'i', 'n', 'a', 't', 'e'], ['s', 'i', 'g']),
  -- level, atmosphere_s_coordinate, sig
  (['l', 'e', 'v', 'e', 'l'], ['a', 't', 'm', 'o', 's', 'p', 'h', 'e', 'r', 'e', '_', 's', '_', 'c', 'o', 'o', 'r', 'd', 'i', 'n', 'a', 't', 'e'], ['s', 'i', 'g']),
  -- level, ocean_s_coordinate_g1, sig
  (['l', 'e', 'v', 'e', 'l'], ['o', 'c', 'e', 'a', 'n', '_', 's', '_', 'c', 'o', 'o', 'r', 'd', 'i', 'n', 'a', 't', 'e', '_', 'g', '1'], ['s', 'i', 'g']),
  -- level, ocean_s_coordinate_g2, sig
  (['l', 'e', 'v', 'e', 'l'], ['o', 'c', 'e', 'a', 'n', '_', 's', '_', 'c', 'o', 'o', 'r', 'd', 'i', 'n', 'a', 't', 'e', '_', 'g', '2'], ['s', 'i', 'g'])]

/-- the names of items that end as a location would -/
def nameLocs : List Str := [['n', 'i', 'v', '_', 'm', 'o', 'y'], ['s', '_', 'l', 'e', 'v', 'e', 'l'], ['s', 'i', 'g', 'm', 'a', '_', 'l', 'e', 'v', 'e', 'l']]
/-- the standard names of items that have a location -/
def stdLocs : List Str := [['s', 'e', 'a', '_', 'w', 'a', 't', 'e', 'r', '_', 'z', '_', 'v', 'e', 'l', 'o', 'c', 'i', 't', 'y', '_', 'a', 't', '_', 'w', '_', 'l', 'o', 'c', 'a', 't', 'i', 'o', 'n'], ['x', '_', 'w', 'i', 'n', 'd', '_', 'a', 't', '_', 'u', '_', 'l', 'o', 'c', 'a', 't', 'i', 'o', 'n'], ['x', '_', 'w', 'i', 'n', 'd', '_', 'a', 't', '_', '1', '0', 'm', '_', 'a', 't', '_', 'u', '_', 'l', 'o', 'c', 'a', 't', 'i', 'o', 'n'], ['y', '_', 'w', 'i', 'n', 'd', '_', 'a', 't', '_', 'v', '_', 'l', 'o', 'c', 'a', 't', 'i', 'o', 'n'], ['y', '_', 'w', 'i', 'n', 'd', '_', 'a', 't', '_', '1', '0', 'm', '_', 'a', 't', '_', 'v', '_', 'l', 'o', 'c', 'a', 't', 'i', 'o', 'n'], ['s', 'u', 'r', 'f', 'a', 'c', 'e', '_', 'd', 'o', 'w', 'n', 'w', 'a', 'r', 'd', '_', 'x', '_', 's', 't', 'r', 'e', 's', 's', '_', 'a', 't', '_', 'u', '_', 'l', 'o', 'c', 'a', 't', 'i', 'o', 'n'], ['s', 'u', 'r', 'f', 'a', 'c', 'e', '_', 'd', 'o', 'w', 'n', 'w', 'a', 'r', 'd', '_', 'y', '_', 's', 't', 'r', 'e', 's', 's', '_', 'a', 't', '_', 'v', '_', 'l', 'o', 'c', 'a', 't', 'i', 'o', 'n']]
/-- the names of coordinates that end as a location would -/
def coordNameLocs : List Str := ["nav_lon".toList, "nav_lat".toList, "s_level".toList, "sigma_level".toList, "model_level".toList]

/-- all the references but those of the table are safe -/
def safeBut (a : SGAttr) (g : Str × CfSpec → List Str) (cat : CfCat) (locs : List Str) (taken : List (Str × Str × Str)) : Bool :=
  cat.all fun p => (g p).all fun v => taken.any (fun t => t.1 == p.1 && t.2.1 == v) || safeRef a g cat locs p.1 v

/-- the references of the table are references of the item, and give another one -/
def takenOk (a : SGAttr) (g : Str × CfSpec → List Str) (cat : CfCat) (taken : List (Str × Str × Str)) : Bool :=
  taken.all fun t => (cat.any fun p => p.1 == t.1 && (g p).contains t.2.1) && (t.2.2 != t.1 && textIn a g cat t.2.1 == some t.2.2)

theorem varNames_clean : cleanRefs .name allNames builtinVars nameLocs = true := by decide +kernel
theorem varNames_safe : safeBut .name allNames builtinVars nameLocs varNamesTaken = true := by decide +kernel
theorem varNames_taken : takenOk .name allNames builtinVars varNamesTaken = true := by decide +kernel
theorem varStds_clean : cleanRefs .standardName allStds builtinVars stdLocs = true := by decide +kernel
theorem varStds_safe : safeBut .standardName allStds builtinVars stdLocs varStdsTaken = true := by decide +kernel
theorem varStds_taken : takenOk .standardName allStds builtinVars varStdsTaken = true := by decide +kernel


theorem coordNames_clean : cleanRefs .name allNames builtinCoords coordNameLocs = true := by decide +kernel
theorem coordNames_safe : safeBut .name allNames builtinCoords coordNameLocs coordNamesTaken = true := by decide +kernel
theorem coordNames_taken : takenOk .name allNames builtinCoords coordNamesTaken = true := by decide +kernel
theorem coordStds_clean : cleanRefs .standardName allStds builtinCoords [] = true := by decide +kernel
theorem coordStds_safe : safeBut .standardName allStds builtinCoords [] coordStdsTaken = true := by decide +kernel
theorem coordStds_taken : takenOk .standardName allStds builtinCoords coordStdsTaken = true := by decide +kernel

/-- a text that is one of the references, or one of them with a location -/
theorem ref_in (a : SGAttr) (ha : a ≠ .longName) (g : Str × CfSpec → List Str) (cat : CfCat) (locs : List Str) (taken : List (Str × Str × Str))
    (hc : cleanRefs a g cat locs = true) (hs : safeBut a g cat locs taken = true) (p : Str × CfSpec) (hp : p ∈ cat) (v : Str) (hv : v ∈ g p)
    (hfree : ∀ y, (p.1, v, y) ∉ taken) (t : Str) (ht : t = v ∨ ∃ l, isLoc l ∧ t = fmt (SG.format {} a) v l) : textIn a g cat t = some p.1 := by
  have hs' := List.all_eq_true.1 (List.all_eq_true.1 hs p hp) v hv
  rw [Bool.or_eq_true] at hs'
  have hsafe : safeRef a g cat locs p.1 v = true := by
    rcases hs' with h | h
    · obtain ⟨⟨x, n, y⟩, htk, he⟩ := List.any_eq_true.1 h
      simp only [Bool.and_eq_true, beq_iff_eq] at he
      obtain ⟨rfl, rfl⟩ := he
      exact absurd htk (hfree y)
    · exact h
  have hcv := List.all_eq_true.1 (List.all_eq_true.1 hc p hp) v hv
  simp only [Bool.and_eq_true, beq_iff_eq, List.all_eq_true] at hcv
  have hroot : isRoot a v := ⟨by intro h; rw [h] at hcv; simp at hcv, fun c hcm => Or.inl (hcv.1.2 c hcm)⟩
  rcases ht with rfl | ⟨l, hl, rfl⟩
  · simp only [safeRef, Bool.and_eq_true, beq_iff_eq] at hsafe
    exact hsafe.1
  · exact located_in a ha g cat locs p.1 v l hc hroot hsafe hl

theorem hits_name (cat : CfCat) (t : Str) : (cat.find? (hits none (some t))).map Prod.fst = textIn .name allNames cat t := by
  unfold textIn
  congr 1

/-- an array whose name tells nothing is recognised from its standard name alone -/
theorem hits_std (cat : CfCat) (t : Str) (nm : Option Str) (h : cat.find? (hits none nm) = none) :
    (cat.find? (hits (some t) nm)).map Prod.fst = textIn .standardName allStds cat t := by
  unfold textIn
  congr 1
  apply find_same
  intro p hp
  have hf := List.find?_eq_none.1 h p hp
  simp only [hits, Option.any_none, Bool.false_or, Bool.not_eq_true] at hf
  simp [hits, hf]

/-! ### the properties -/

/-- the text, whatever its case, is `n`, or `n` with a location: `n_u`, `n_rho`... -/
def NameText (n s : Str) : Prop := lower s = n ∨ ∃ l, isLoc l ∧ lower s = n ++ '_' :: l

/-- the text, whatever its case, is `v`, or `v` with a location: `v_at_u_location`... -/
def StdText (v s : Str) : Prop := lower s = v ∨ ∃ l, isLoc l ∧ lower s = v ++ "_at_".toList ++ l ++ "_location".toList

theorem nameText_fmt (n s : Str) (h : NameText n s) : lower s = n ∨ ∃ l, isLoc l ∧ lower s = fmt (SG.format {} .name) n l := by
  rcases h with h | ⟨l, hl, h⟩
  · exact Or.inl h
  · refine Or.inr ⟨l, hl, ?_⟩
    rw [h]
    simp [fmt, SG.format]

theorem stdText_fmt (n s : Str) (h : StdText n s) : lower s = n ∨ ∃ l, isLoc l ∧ lower s = fmt (SG.format {} .standardName) n l := by
  rcases h with h | ⟨l, hl, h⟩
  · exact Or.inl h
  · refine Or.inr ⟨l, hl, ?_⟩
    rw [h]
    simp [fmt, SG.format]

theorem textAttr_none (da : DObj) (a : Str) (h : da.get a = none) : textAttr da a = none := by simp [textAttr, h]
theorem textAttr_some (da : DObj) (a s : Str) (h : da.get a = some (.str s)) : textAttr da a = some s := by simp [textAttr, h]

/-- **C172, part.** With the built-in specifications, every array without standard name, and whose name is a name or alias `n` of the
built-in data variable `x`, in any case and with or without a location, is recognised as `x`, whatever its other attributes are. Missing: the fifteen pairs
`(x, n)` of `varNamesTaken`, for which this is false (`C172_names_violated`). -/
theorem C172_by_name_partial (x : Str) (spec : CfSpec) (hx : (x, spec) ∈ loadedVars) (n : Str) (hn : n ∈ x :: spec.names)
    (hfree : ∀ y, (x, n, y) ∉ varNamesTaken) (da : DObj) (s : Str) (hname : da.name = some s) (hs : NameText n s)
    (hstd : da.get "standard_name".toList = none) : matchAny {} loadedVars .any da = .ok (some x) := by
  rw [matchVars da (Or.inl hstd), textAttr_none da _ hstd, hname]
  rw [loadedVars_eq] at hx
  simp only [Option.map_none, Option.map_some]
  rw [hits_name, ref_in .name (by decide) allNames builtinVars nameLocs varNamesTaken varNames_clean varNames_safe (x, spec) hx n hn hfree
    (lower s) (nameText_fmt n s hs)]

theorem taken_entry (a : SGAttr) (g : Str × CfSpec → List Str) (cat : CfCat) (taken : List (Str × Str × Str)) (h : takenOk a g cat taken = true)
    (x v y : Str) (ht : (x, v, y) ∈ taken) : (∃ spec, (x, spec) ∈ cat ∧ v ∈ g (x, spec)) ∧ y ≠ x ∧ textIn a g cat v = some y := by
  have h' := List.all_eq_true.1 h _ ht
  simp only [Bool.and_eq_true, bne_iff_ne, beq_iff_eq, List.any_eq_true] at h'
  obtain ⟨⟨⟨x', spec⟩, hm, hx, hc⟩, hne, htx⟩ := h'
  obtain rfl : x' = x := hx
  exact ⟨⟨spec, hm, List.contains_iff_mem.1 hc⟩, hne, htx⟩

/-- **C172 is violated** for fifteen names and aliases: `n` is a name of `x`, and every array of this name is recognised as another item `y`; among
them are the very names of the items `sigma0`, `u3d`, `v3d`, `w3d` and `wlv`, so that `match` never answers these items for an array of this name. -/
theorem C172_names_violated (x n y : Str) (ht : (x, n, y) ∈ varNamesTaken) :
    (∃ spec, (x, spec) ∈ loadedVars ∧ n ∈ x :: spec.names) ∧ y ≠ x ∧
    ∀ (da : DObj) (s : Str), da.name = some s → lower s = n → da.get "standard_name".toList = none →
      matchAny {} loadedVars .any da = .ok (some y) := by
  obtain ⟨h1, h2, h3⟩ := taken_entry .name allNames builtinVars _ varNames_taken x n y ht
  rw [loadedVars_eq]
  refine ⟨h1, h2, ?_⟩
  intro da s hname hs hstd
  rw [← loadedVars_eq, matchVars da (Or.inl hstd), textAttr_none da _ hstd, hname]
  simp only [Option.map_none, Option.map_some]
  rw [hits_name, hs, h3]

/-- the name of an array tells nothing: alone, it is not recognised -/
def Silent (cat : CfCat) (name : Option Str) : Prop := matchAny {} cat .any ⟨name, fun _ => none⟩ = .ok none

theorem bare_get (name : Option Str) : (DObj.mk name fun _ => none).get "standard_name".toList = none := by
  unfold DObj.get
  rw [if_neg (by decide)]

theorem silent_vars (name : Option Str) (h : Silent loadedVars name) : builtinVars.find? (hits none (name.map lower)) = none := by
  have h' := matchVars ⟨name, fun _ => none⟩ (Or.inl (bare_get name))
  unfold Silent at h
  rw [h] at h'
  have e : textAttr ⟨name, fun _ => none⟩ "standard_name".toList = none := textAttr_none _ _ (bare_get name)
  rw [e] at h'
  injection h' with h'
  cases hf : builtinVars.find? (hits none (name.map lower)) with
  | none => rfl
  | some p => simp only [Option.map_none] at h'; rw [hf] at h'; simp at h'

/-- **C173, part.** With the built-in specifications, every array whose standard name is a standard name `v` of the built-in data variable `x`, in any case
and with or without a location, is recognised as `x` if it has no name or a name that tells nothing. Missing: the 34 pairs `(x, v)` of `varStdsTaken`,
for which this is false (`C173_standard_names_violated`). -/
theorem C173_by_standard_name_partial (x : Str) (spec : CfSpec) (hx : (x, spec) ∈ loadedVars) (v : Str) (hv : v ∈ stdsOf spec)
    (hfree : ∀ y, (x, v, y) ∉ varStdsTaken) (da : DObj) (s : Str) (hstd : da.get "standard_name".toList = some (.str s)) (hs : StdText v s)
    (hname : Silent loadedVars da.name) : matchAny {} loadedVars .any da = .ok (some x) := by
  rw [matchVars da (Or.inr ⟨s, hstd⟩), textAttr_some da _ s hstd]
  rw [loadedVars_eq] at hx
  simp only [Option.map_some]
  rw [hits_std _ _ _ (silent_vars _ hname),
    ref_in .standardName (by decide) allStds builtinVars stdLocs varStdsTaken varStds_clean varStds_safe (x, spec) hx v hv hfree
    (lower s) (stdText_fmt v s hs)]

/-- **C173 is violated** for 34 standard names, that several items have: every array with the standard name `v` of `x` is recognised as another item `y`. -/
theorem C173_standard_names_violated (x v y : Str) (ht : (x, v, y) ∈ varStdsTaken) :
    (∃ spec, (x, spec) ∈ loadedVars ∧ v ∈ stdsOf spec) ∧ y ≠ x ∧
    ∀ (da : DObj) (s : Str), da.get "standard_name".toList = some (.str s) → lower s = v → Silent loadedVars da.name →
      matchAny {} loadedVars .any da = .ok (some y) := by
  obtain ⟨h1, h2, h3⟩ := taken_entry .standardName allStds builtinVars _ varStds_taken x v y ht
  rw [loadedVars_eq]
  refine ⟨h1, h2, ?_⟩
  intro da s hstd hs hname
  rw [← loadedVars_eq] at hname
  rw [← loadedVars_eq, matchVars da (Or.inr ⟨s, hstd⟩), textAttr_some da _ s hstd]
  simp only [Option.map_some]
  rw [hits_std _ _ _ (silent_vars _ hname), hs, h3]


/-- the standard name that the file cf.cfg writes for an item -/
def misplacedStds : List (Str × Str) := [("ke".toList, "kinetic_energy".toList), ("eke".toList, "eddy_kinetic_energy".toList),
  ("tke".toList, "turbulent_kinetic_energy".toList), ("mke".toList, "mean_kinetic_energy".toList),
  ("t2m".toList, "air_potential_temperature_at_2_meters".toList)]

theorem misplaced_check : (misplacedStds.all fun t => (builtinVars.any fun p => p.1 == t.1) && (textIn .standardName allStds builtinVars t.2).isNone) = true := by
  decide +kernel

/-- **C173 is violated** for five more items: the file gives them a standard name (xoa/cf.cfg:296, 302, 308, 313 and 559), but with the key `standard_names`
or outside of the section `attrs`, so that no item is recognised from it. -/
theorem C173_misplaced_violated (x v : Str) (ht : (x, v) ∈ misplacedStds) :
    (∃ spec, (x, spec) ∈ loadedVars) ∧
    ∀ (da : DObj) (s : Str), da.get "standard_name".toList = some (.str s) → lower s = v → Silent loadedVars da.name →
      matchAny {} loadedVars .any da = .ok none := by
  have h := List.all_eq_true.1 misplaced_check _ ht
  simp only [Bool.and_eq_true, List.any_eq_true, beq_iff_eq, Option.isNone_iff_eq_none] at h
  obtain ⟨⟨⟨x', spec⟩, hm, hx⟩, hno⟩ := h
  obtain rfl : x' = x := hx
  refine ⟨⟨spec, by rw [loadedVars_eq]; exact hm⟩, ?_⟩
  intro da s hstd hs hname
  rw [matchVars da (Or.inr ⟨s, hstd⟩), textAttr_some da _ s hstd]
  simp only [Option.map_some]
  rw [hits_std _ _ _ (silent_vars _ hname), hs, hno]

/-! ### coordinates -/

/-- **C174, part.** With the built-in specifications, every array without standard name, axis and units attributes, and whose name is a name or alias `n` of the
built-in coordinate `x`, in any case and with or without a location, is recognised as the coordinate `x`. Missing: the four aliases of `level` that are first those of
`sig` (`C174_names_violated`), and the arrays with an axis (`C174_horizontal`, `C174_axis_violated`). -/
theorem C174_by_name_partial (x : Str) (spec : CfSpec) (hx : (x, spec) ∈ loadedCoords) (n : Str) (hn : n ∈ x :: spec.names)
    (hfree : ∀ y, (x, n, y) ∉ coordNamesTaken) (da : DObj) (s : Str) (hname : da.name = some s) (hs : NameText n s)
    (hstd : da.get "standard_name".toList = none) (ha : da.get "axis".toList = none) (hu : da.get "units".toList = none) :
    matchAny {} loadedCoords .any da = .ok (some x) := by
  rw [matchCoords da (Or.inl hstd) ha hu, textAttr_none da _ hstd, hname]
  rw [loadedCoords_eq] at hx
  simp only [Option.map_none, Option.map_some]
  rw [hits_name, ref_in .name (by decide) allNames builtinCoords coordNameLocs coordNamesTaken coordNames_clean coordNames_safe (x, spec) hx n hn hfree
    (lower s) (nameText_fmt n s hs)]

/-- **C174 is violated** for the aliases that `level` inherits from `sig`: they are recognised as `sig`. -/
theorem C174_names_violated (x n y : Str) (ht : (x, n, y) ∈ coordNamesTaken) :
    (∃ spec, (x, spec) ∈ loadedCoords ∧ n ∈ x :: spec.names) ∧ y ≠ x ∧
    ∀ (da : DObj) (s : Str), da.name = some s → lower s = n → da.get "standard_name".toList = none → da.get "axis".toList = none →
      da.get "units".toList = none → matchAny {} loadedCoords .any da = .ok (some y) := by
  obtain ⟨h1, h2, h3⟩ := taken_entry .name allNames builtinCoords _ coordNames_taken x n y ht
  rw [loadedCoords_eq]
  refine ⟨h1, h2, ?_⟩
  intro da s hname hs hstd ha hu
  rw [← loadedCoords_eq, matchCoords da (Or.inl hstd) ha hu, textAttr_none da _ hstd, hname]
  simp only [Option.map_none, Option.map_some]
  rw [hits_name, hs, h3]

theorem silent_coords (name : Option Str) (h : Silent loadedCoords name) : builtinCoords.find? (hits none (name.map lower)) = none := by
  have h' := matchCoords ⟨name, fun _ => none⟩ (Or.inl (bare_get name)) (by unfold DObj.get; rw [if_neg (by decide)])
    (by unfold DObj.get; rw [if_neg (by decide)])
  unfold Silent at h
  rw [h] at h'
  have e : textAttr ⟨name, fun _ => none⟩ "standard_name".toList = none := textAttr_none _ _ (bare_get name)
  rw [e] at h'
  injection h' with h'
  cases hf : builtinCoords.find? (hits none (name.map lower)) with
  | none => rfl
  | some p => simp only [Option.map_none] at h'; rw [hf] at h'; simp at h'

/-- **C174, part.** The same from the standard name, when the name of the array is missing or tells nothing. Missing: the six standard names of `level` that are
first those of `sig` (`C174_standard_names_violated`), and the arrays with an axis. -/
theorem C174_by_standard_name_partial (x : Str) (spec : CfSpec) (hx : (x, spec) ∈ loadedCoords) (v : Str) (hv : v ∈ stdsOf spec)
    (hfree : ∀ y, (x, v, y) ∉ coordStdsTaken) (da : DObj) (s : Str) (hstd : da.get "standard_name".toList = some (.str s)) (hs : StdText v s)
    (hname : Silent loadedCoords da.name) (ha : da.get "axis".toList = none) (hu : da.get "units".toList = none) :
    matchAny {} loadedCoords .any da = .ok (some x) := by
  rw [matchCoords da (Or.inr ⟨s, hstd⟩) ha hu, textAttr_some da _ s hstd]
  rw [loadedCoords_eq] at hx
  simp only [Option.map_some]
  rw [hits_std _ _ _ (silent_coords _ hname),
    ref_in .standardName (by decide) allStds builtinCoords [] coordStdsTaken coordStds_clean coordStds_safe (x, spec) hx v hv hfree
    (lower s) (stdText_fmt v s hs)]

/-- **C174 is violated** for the standard names that `level` inherits from `sig`. -/
theorem C174_standard_names_violated (x v y : Str) (ht : (x, v, y) ∈ coordStdsTaken) :
    (∃ spec, (x, spec) ∈ loadedCoords ∧ v ∈ stdsOf spec) ∧ y ≠ x ∧
    ∀ (da : DObj) (s : Str), da.get "standard_name".toList = some (.str s) → lower s = v → Silent loadedCoords da.name →
      da.get "axis".toList = none → da.get "units".toList = none → matchAny {} loadedCoords .any da = .ok (some y) := by
  obtain ⟨h1, h2, h3⟩ := taken_entry .standardName allStds builtinCoords _ coordStds_taken x v y ht
  rw [loadedCoords_eq]
  refine ⟨h1, h2, ?_⟩
  intro da s hstd hs hname ha hu
  rw [← loadedCoords_eq] at hname
  rw [← loadedCoords_eq, matchCoords da (Or.inr ⟨s, hstd⟩) ha hu, textAttr_some da _ s hstd]
  simp only [Option.map_some]
  rw [hits_std _ _ _ (silent_coords _ hname), hs, h3]

end Xoa
