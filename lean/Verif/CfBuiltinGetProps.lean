import Verif.CfBuiltinAxisProps
import Verif.CoordGetProps

/-!
# The coordinate getters with the built-in CF specifications (C178)
-/

set_option maxRecDepth 20000

namespace Xoa

/-- how a coordinate is told, in lower case: its names, its standard names, its units and its axis -/
structure Known where
  x : Str
  names : List Str
  stds : List Str
  units : List Str := []
  axis : Option Char := none

/-- the coordinates of the getters `get_lon`, `get_lat`, `get_time`, `get_depth`, `get_altitude` and `get_level`, as xoa/cf.cfg tells them (995-1060) -/
def knownCoords : List Known := [
  ⟨"lon".toList, ["lon".toList, "longitude".toList, "nav_lon".toList], ["longitude".toList, "longitudes".toList], lonUnits, none⟩,
  ⟨"lat".toList, ["lat".toList, "latitude".toList, "nav_lat".toList, "latitudes".toList], ["latitude".toList], latUnits, none⟩,
  ⟨"time".toList, ["time".toList], ["time".toList], [], some 't'⟩,
  ⟨"depth".toList, ["depth".toList, "dep".toList], ["ocean_layer_depth".toList], [], some 'z'⟩,
  ⟨"altitude".toList, ["altitude".toList, "altitudet".toList, "altitudeu".toList, "altitudev".toList], ["atmosphere_layer_altitude".toList], [], some 'z'⟩,
  ⟨"level".toList, ["level".toList, "model_level".toList, "s_level".toList, "sigma".toList, "s".toList, "sigma_level".toList],
    ["model_level_number".toList, "ocean_sigma_coordinate".toList, "ocean_s_coordinate".toList, "atmosphere_sigma_coordinate".toList,
     "atmosphere_s_coordinate".toList, "ocean_s_coordinate_g1".toList, "ocean_s_coordinate_g2".toList], [], some 'z'⟩]

/-- the array is told to be this coordinate: by its name or its standard name, in any case and with or without a location, by its units or by its axis -/
def Told (k : Known) (o : DObj) : Prop :=
  (∃ s, o.name = some s ∧ ∃ n ∈ k.names, NameText n s) ∨
  (∃ s, o.get "standard_name".toList = some (.str s) ∧ ∃ v ∈ k.stds, StdText v s) ∨
  (∃ s, o.get "units".toList = some (.str s) ∧ lower (strip s) ∈ k.units) ∨
  (∃ s a, o.get "axis".toList = some (.str s) ∧ k.axis = some a ∧ lower (strip s) = [a])

/-- the text, ignoring case and surrounding blanks, is not `n`, and does not begin with `n` and the separator of the location -/
def Apart (sep n s : Str) : Prop := lower s ≠ n ∧ lower (strip s) ≠ n ∧ ¬ (n ++ sep) <+: lower s

/-- nothing in the array tells that it is this coordinate -/
def Untold (k : Known) (o : DObj) : Prop :=
  (∀ s, o.name = some s → ∀ n ∈ k.names, Apart "_".toList n s) ∧
  (∀ s, o.get "standard_name".toList = some (.str s) → ∀ v ∈ k.stds, Apart "_at_".toList v s) ∧
  (∀ s, o.get "units".toList = some (.str s) → lower (strip s) ∉ k.units) ∧
  (∀ s a, o.get "axis".toList = some (.str s) → k.axis = some a → lower (strip s) ≠ [a])

/-- the attributes of the array that are looked at are missing or texts -/
def CritTexts (k : Known) (o : DObj) : Prop :=
  TextOrNone o "standard_name".toList ∧ (k.units ≠ [] → TextOrNone o "units".toList) ∧ (k.axis ≠ none → TextOrNone o "axis".toList)

/-- the criteria -/
def Known.crits (k : Known) : List (Str × Refs) :=
  [("name".toList, .list k.names), ("standard_name".toList, .list k.stds)] ++ (if k.units = [] then [] else [("units".toList, .list k.units)]) ++
    match k.axis with
    | none => []
    | some a => [("axis".toList, .text [a.toUpper])]

/-- the texts of a criterion are in lower case and made of word characters -/
def plainText (v : Str) : Bool := lower v == v && !v.isEmpty && v.all isWord

/-- the criteria that the loaded specifications have, and the data variables of the same name -/
def knownOk (k : Known) : Bool :=
  (k.names ++ k.stds ++ k.units).all plainText &&
  ((lookupS k.x builtinCoords).any fun spec => (orderedCrits k.x spec).all (fun c => k.crits.contains c) && k.crits.all (fun c => (orderedCrits k.x spec).contains c)) &&
  (match lookupS k.x builtinVars with
    | none => true
    | some spec => (orderedCrits k.x spec).all fun c => k.crits.contains c) &&
  k.axis.all (fun a => a.toLower == a && a.toUpper.toLower == a && !isSpace a.toUpper)

theorem known_ok : (knownCoords.all knownOk) = true := by decide +kernel

/-! ### told and untold arrays -/

theorem plainText_root (a : SGAttr) (v : Str) (h : plainText v = true) : isRoot a v ∧ lower v = v ∧ strip v = v := by
  simp only [plainText, Bool.and_eq_true, beq_iff_eq, List.all_eq_true] at h
  obtain ⟨⟨h1, h2⟩, h3⟩ := h
  refine ⟨⟨by rintro rfl; simp at h2, fun c hc => Or.inl (h3 c hc)⟩, h1, strip_no_space v fun c hc => isWord_not_space c (h3 c hc)⟩

theorem refMatches_of_text (attr : Str) (a : SGAttr) (ha : sgAttrOf attr = some a) (v s : Str) (hv : plainText v = true)
    (h : lower s = v ∨ ∃ l, isLoc l ∧ lower s = fmt (SG.format {} a) v l) : RefMatches {} .any attr s v := by
  obtain ⟨hr, hl, hst⟩ := plainText_root a v hv
  rcases h with h | ⟨l, hloc, h⟩
  · refine Or.inl ⟨?_, hr.1, ?_⟩
    · rintro rfl
      exact hr.1 (by rw [← h]; rfl)
    · rw [← strip_lower, h, hst, hl]
  · refine Or.inr ⟨a, ha, ?_, trivial⟩
    rw [h, C38_round_trip {} sg0_regular a v l hr hloc (Or.inl rfl) (fun _ l' hl' => by simp at hl')]

theorem parse_root_cases (a : SGAttr) (v : Str) (hpre : (SG.format {} a).pre = []) :
    (parseAttr {} a v).1 = v ∨ (lower (parseAttr {} a v).1 ++ lower (SG.format {} a).sep) <+: lower v := by
  unfold parseAttr
  cases hp : parseRe {} a v with
  | none => exact Or.inl rfl
  | some r =>
    right
    obtain ⟨root, loc⟩ := r
    show (lower root ++ lower (SG.format {} a).sep) <+: lower v
    unfold parseRe at hp
    dsimp only at hp
    rw [hpre] at hp
    rw [litMatch_nil, if_pos rfl, List.length_nil, List.drop_zero] at hp
    obtain ⟨n, _, hn⟩ := List.exists_of_findSome?_eq_some hp
    unfold tryRoot at hn
    split at hn
    · rename_i hsep
      cases ht : tryLoc ({} : SG).valid (SG.format {} a).post (v.drop (n + (SG.format {} a).sep.length)) with
      | none => rw [ht] at hn; cases hn
      | some l =>
        rw [ht] at hn
        simp only [Option.map_some, Option.some.injEq, Prod.mk.injEq] at hn
        rw [litMatch_iff] at hsep
        obtain ⟨t, ht'⟩ := hsep
        refine ⟨t, ?_⟩
        rw [← hn.1]
        have e : lower v = lower (v.take n) ++ lower (v.drop n) := by
          unfold lower
          rw [← List.map_append, List.take_append_drop]
        rw [e, ← ht', List.append_assoc]
    · cases hn

theorem not_refMatches (attr : Str) (a : SGAttr) (ha : sgAttrOf attr = some a) (hpre : (SG.format {} a).pre = []) (v s : Str)
    (hv : plainText v = true) (h : Apart (lower (SG.format {} a).sep) v s) : ¬ RefMatches {} .any attr s v := by
  obtain ⟨hr, hl, hst⟩ := plainText_root a v hv
  rintro (⟨_, _, h1⟩ | ⟨a', ha', h1, _⟩)
  · rw [hst, hl] at h1
    exact h.2.1 h1
  · rw [ha] at ha'
    injection ha' with ha'
    subst ha'
    rw [hl] at h1
    rcases parse_root_cases a (lower s) hpre with h2 | h2
    · rw [h2, lower_lower] at h1
      exact h.1 h1
    · rw [h1, lower_lower] at h2
      exact h.2.2 h2

theorem sgN : sgAttrOf "name".toList = some .name := by decide
theorem sgS : sgAttrOf "standard_name".toList = some .standardName := by decide
theorem sgU : sgAttrOf "units".toList = none := by decide
theorem sgA : sgAttrOf "axis".toList = none := by decide

theorem plainMatch (attr s ref : Str) (hs : sgAttrOf attr = none) : RefMatches {} .any attr s ref ↔ s ≠ [] ∧ ref ≠ [] ∧ lower (strip s) = lower (strip ref) := by
  unfold RefMatches
  constructor
  · rintro (h | ⟨a, ha, _⟩)
    · exact h
    · rw [hs] at ha; cases ha
  · exact Or.inl

structure KnownPlain (k : Known) : Prop where
  plain : ∀ v ∈ k.names ++ k.stds ++ k.units, plainText v = true
  axis : ∀ a, k.axis = some a → a.toLower = a ∧ a.toUpper.toLower = a ∧ isSpace a.toUpper = false

structure KnownFacts (k : Known) : Prop extends KnownPlain k where
  coord : ∃ spec, lookupS k.x loadedCoords = some spec ∧ ∀ c, c ∈ orderedCrits k.x spec ↔ c ∈ k.crits
  var : ∀ spec, lookupS k.x loadedVars = some spec → ∀ c ∈ orderedCrits k.x spec, c ∈ k.crits

theorem known_facts (k : Known) (hk : k ∈ knownCoords) : KnownFacts k := by
  have h := List.all_eq_true.1 known_ok k hk
  unfold knownOk at h
  simp only [Bool.and_eq_true] at h
  obtain ⟨⟨⟨h1, h2⟩, h3⟩, h4⟩ := h
  refine ⟨⟨fun v hv => List.all_eq_true.1 h1 v hv, ?_⟩, ?_, ?_⟩
  rotate_left
  · rw [loadedCoords_eq]
    rw [Option.any_eq_true] at h2
    obtain ⟨spec, hs, h2⟩ := h2
    rw [Bool.and_eq_true, List.all_eq_true, List.all_eq_true] at h2
    exact ⟨spec, hs, fun c => ⟨fun hc => List.contains_iff_mem.1 (h2.1 c hc), fun hc => List.contains_iff_mem.1 (h2.2 c hc)⟩⟩
  · rw [loadedVars_eq]
    intro spec hs c hc
    rw [hs] at h3
    exact List.contains_iff_mem.1 (List.all_eq_true.1 h3 c hc)
  · intro a ha
    rw [ha] at h4
    simp only [Option.all_some, Bool.and_eq_true, beq_iff_eq, Bool.not_eq_true'] at h4
    exact ⟨h4.1.1, h4.1.2, h4.2⟩

theorem get_name (o : DObj) : o.get "name".toList = o.name.map AVal.str := by simp [DObj.get]

theorem crits_cases (k : Known) (c : Str × Refs) (h : c ∈ k.crits) :
    c = ("name".toList, .list k.names) ∨ c = ("standard_name".toList, .list k.stds) ∨ (k.units ≠ [] ∧ c = ("units".toList, .list k.units)) ∨
      ∃ a, k.axis = some a ∧ c = ("axis".toList, .text [a.toUpper]) := by
  unfold Known.crits at h
  rw [List.mem_append, List.mem_append] at h
  rcases h with (h | h) | h
  · rcases List.mem_cons.1 h with h | h
    · exact Or.inl h
    · exact Or.inr (Or.inl (List.mem_singleton.1 h))
  · split at h
    · cases h
    next hu => exact Or.inr (Or.inr (Or.inl ⟨hu, List.mem_singleton.1 h⟩))
  · cases ha : k.axis with
    | none => rw [ha] at h; cases h
    | some a =>
      rw [ha] at h
      exact Or.inr (Or.inr (Or.inr ⟨a, rfl, List.mem_singleton.1 h⟩))

theorem strip_one (a : Char) (h : isSpace a = false) : strip [a] = [a] := by
  apply strip_no_space
  intro c hc
  rw [List.mem_singleton] at hc
  rw [hc]; exact h

theorem told_satisfies (k : Known) (hk : KnownPlain k) (o : DObj) (h : Told k o) : ∃ c ∈ k.crits, Satisfies {} .any o c := by
  rcases h with ⟨s, hs, n, hn, ht⟩ | ⟨s, hs, v, hv, ht⟩ | ⟨s, hs, hu⟩ | ⟨s, a, hs, ha, ht⟩
  · refine ⟨("name".toList, .list k.names), by simp [Known.crits], s, by rw [get_name, hs]; rfl, n, hn, ?_⟩
    exact refMatches_of_text _ .name sgN n s (hk.plain n (by simp [hn])) (nameText_fmt n s ht)
  · refine ⟨("standard_name".toList, .list k.stds), by simp [Known.crits], s, hs, v, hv, ?_⟩
    exact refMatches_of_text _ .standardName sgS v s (hk.plain v (by simp [hv])) (stdText_fmt v s ht)
  · have hp := plainText_root .name _ (hk.plain (lower (strip s)) (by simp [hu]))
    refine ⟨("units".toList, .list k.units), ?_, s, hs, lower (strip s), hu, ?_⟩
    · unfold Known.crits
      rw [if_neg (by intro c; rw [c] at hu; cases hu)]
      simp
    · refine (plainMatch _ _ _ sgU).2 ⟨?_, hp.1.1, ?_⟩
      · rintro rfl
        exact hp.1.1 rfl
      · rw [hp.2.2, hp.2.1]
  · obtain ⟨h1, h2, h3⟩ := hk.axis a ha
    refine ⟨("axis".toList, .text [a.toUpper]), ?_, s, hs, [a.toUpper], by simp [Refs.all], ?_⟩
    · unfold Known.crits
      rw [ha]
      simp
    · refine (plainMatch _ _ _ sgA).2 ⟨?_, by simp, ?_⟩
      · rintro rfl
        have : ([] : Str) = [a] := ht
        cases this
      · rw [ht, strip_one _ h3]
        show [a] = [a.toUpper.toLower]
        rw [h2]

theorem untold_satisfies (k : Known) (hk : KnownPlain k) (o : DObj) (h : Untold k o) (c : Str × Refs) (hc : c ∈ k.crits) : ¬ Satisfies {} .any o c := by
  rintro ⟨s, hs, ref, href, hm⟩
  rcases crits_cases k c hc with rfl | rfl | ⟨_, rfl⟩ | ⟨a, ha, rfl⟩
  · rw [get_name] at hs
    cases hn : o.name with
    | none => rw [hn] at hs; cases hs
    | some s' =>
      rw [hn] at hs
      simp only [Option.map_some, Option.some.injEq, AVal.str.injEq] at hs
      subst hs
      exact not_refMatches _ .name sgN rfl ref s' (hk.plain ref (by simp only [List.mem_append]; exact Or.inl (Or.inl href))) (h.1 s' hn ref href) hm
  · exact not_refMatches _ .standardName sgS rfl ref s (hk.plain ref (by simp only [List.mem_append]; exact Or.inl (Or.inr href))) (h.2.1 s hs ref href) hm
  · obtain ⟨_, _, he⟩ := (plainMatch _ _ _ sgU).1 hm
    have hp := plainText_root .name ref (hk.plain ref (by simp only [List.mem_append]; exact Or.inr href))
    rw [hp.2.2, hp.2.1] at he
    exact h.2.2.1 s hs (he ▸ href)
  · obtain ⟨h1, h2, h3⟩ := hk.axis a ha
    simp only [Refs.all, List.map_cons, List.map_nil, List.mem_singleton] at href
    subst href
    obtain ⟨_, _, he⟩ := (plainMatch _ _ _ sgA).1 hm
    rw [strip_one _ h3] at he
    refine h.2.2.2 s a hs ha ?_
    rw [he]
    show [a.toUpper.toLower] = [a]
    rw [h2]

theorem critTexts_total (k : Known) (o : DObj) (h : CritTexts k o) (c : Str × Refs) (hc : c ∈ k.crits) : ∃ b, matchCrits {} .any o [c] = .ok b := by
  refine C44_match_total_partial {} .any o [c] (by simp) fun c' hc' => ?_
  rw [List.mem_singleton] at hc'
  subst hc'
  have go : ∀ attr : Str, TextOrNone o attr → c'.1 = attr → c'.2 ≠ .none_ →
      o.get c'.1 = none ∨ c'.2 ≠ .none_ ∧ ((∃ s, o.get c'.1 = some (.str s)) ∨ FalseValue o c'.1) := by
    intro attr ht he hn
    rw [he]
    rcases ht with ht | ht
    · exact Or.inl ht
    · exact Or.inr ⟨hn, Or.inl ht⟩
  have hnm : TextOrNone o "name".toList := by
    unfold TextOrNone
    rw [get_name]
    cases o.name with
    | none => exact Or.inl rfl
    | some s => exact Or.inr ⟨s, rfl⟩
  rcases crits_cases k c' hc with rfl | rfl | ⟨hu, rfl⟩ | ⟨a, ha, rfl⟩
  · exact go _ hnm rfl (by simp)
  · exact go _ h.1 rfl (by simp)
  · exact go _ (h.2.1 hu) rfl (by simp)
  · exact go _ (h.2.2 (by rw [ha]; simp)) rfl (by simp)

/-! ### the search -/

theorem searchFlat_stays (x : Str) (o : DObj) (l : List ((DObj → Except MErr (Option Str)) × DObj))
    (h : ∀ p ∈ l, p.1 p.2 = .ok none ∨ p.2 = o ∧ p.1 p.2 = .ok (some x)) :
    searchFlat l ⟨[(o, x)], [o.name], some x⟩ = .ok ⟨[(o, x)], [o.name], some x⟩ := by
  induction l with
  | nil => rfl
  | cons p ps ih =>
    have e : searchObj p.1 ⟨[(o, x)], [o.name], some x⟩ p.2 = .ok ⟨[(o, x)], [o.name], some x⟩ := by
      unfold searchObj
      rcases h p List.mem_cons_self with h1 | ⟨h1, h2⟩
      · rw [h1]; rfl
      · rw [h2, h1]
        show (if o.name ∈ [o.name] then _ else _) = _
        rw [if_pos (by simp)]
    unfold searchFlat
    rw [e]
    exact ih fun q hq => h q (List.mem_cons_of_mem _ hq)

theorem searchFlat_one (x : Str) (o : DObj) (l : List ((DObj → Except MErr (Option Str)) × DObj))
    (h : ∀ p ∈ l, p.1 p.2 = .ok none ∨ p.2 = o ∧ p.1 p.2 = .ok (some x)) (hx : ∃ p ∈ l, p.1 p.2 = .ok (some x)) :
    searchFlat l ⟨[], [], some x⟩ = .ok ⟨[(o, x)], [o.name], some x⟩ := by
  induction l with
  | nil => obtain ⟨p, hp, _⟩ := hx; cases hp
  | cons p ps ih =>
    have hps : ∀ q ∈ ps, q.1 q.2 = .ok none ∨ q.2 = o ∧ q.1 q.2 = .ok (some x) := fun q hq => h q (List.mem_cons_of_mem _ hq)
    rcases h p List.mem_cons_self with h1 | ⟨h1, h2⟩
    · have e : searchObj p.1 ⟨[], [], some x⟩ p.2 = .ok ⟨[], [], some x⟩ := by
        unfold searchObj
        rw [h1]; rfl
      unfold searchFlat
      rw [e]
      refine ih hps ?_
      obtain ⟨q, hq, hq2⟩ := hx
      rcases List.mem_cons.1 hq with rfl | hq
      · rw [h1] at hq2
        cases hq2
      · exact ⟨q, hq, hq2⟩
    · have e : searchObj p.1 ⟨[], [], some x⟩ p.2 = .ok ⟨[(o, x)], [o.name], some x⟩ := by
        unfold searchObj
        rw [h2, h1]
        simp [Except.bind]
      unfold searchFlat
      rw [e]
      exact searchFlat_stays x o ps hps

theorem searchFlat_zero (x : Str) (l : List ((DObj → Except MErr (Option Str)) × DObj))
    (h : ∀ p ∈ l, p.1 p.2 = .ok none) : searchFlat l ⟨[], [], some x⟩ = .ok ⟨[], [], some x⟩ := by
  induction l with
  | nil => rfl
  | cons p ps ih =>
    have e : searchObj p.1 ⟨[], [], some x⟩ p.2 = .ok ⟨[], [], some x⟩ := by
      unfold searchObj
      rw [h p List.mem_cons_self]; rfl
    unfold searchFlat
    rw [e]
    exact ih fun q hq => h q (List.mem_cons_of_mem _ hq)

theorem critTest_untold (k : Known) (hk : KnownPlain k) (o : DObj) (ht : CritTexts k o) (h : Untold k o) (c : Str × Refs) (hc : c ∈ k.crits) :
    critTest {} .any k.x c o = .ok none := by
  obtain ⟨b, hb⟩ := critTexts_total k o ht c hc
  have e : critTest {} .any k.x c o = .ok (if b then some k.x else none) := by
    unfold critTest
    rw [hb]; rfl
  rcases critTest_iff {} .any k.x c o _ e with ⟨_, hs⟩ | ⟨hn, _⟩
  · exact absurd hs (untold_satisfies k hk o h c hc)
  · rw [e, hn]

theorem search_untold (k : Known) (hk : KnownPlain k) (objs : List DObj) (spec : CfSpec) (hcr : ∀ c ∈ orderedCrits k.x spec, c ∈ k.crits)
    (ht : ∀ o ∈ objs, CritTexts k o) (hu : ∀ o ∈ objs, Untold k o) : searchNameAll {} .any objs k.x spec = .ok [] := by
  unfold searchNameAll
  rw [searchLoop_flat, searchFlat_zero]
  · rfl
  · intro p hp
    rw [mem_visits, List.mem_map] at hp
    obtain ⟨⟨c, hc, hc'⟩, ho⟩ := hp
    rw [← hc']
    exact critTest_untold k hk p.2 (ht _ ho) (hu _ ho) c (hcr c hc)

theorem search_told (k : Known) (hk : KnownPlain k) (pre post : List DObj) (o : DObj) (spec : CfSpec) (hcr : ∀ c, c ∈ orderedCrits k.x spec ↔ c ∈ k.crits)
    (ht : ∀ y ∈ pre ++ o :: post, CritTexts k y) (hu : ∀ y ∈ pre ++ post, Untold k y) (ho : Told k o) :
    searchNameAll {} .any (pre ++ o :: post) k.x spec = .ok [(o, k.x)] := by
  unfold searchNameAll
  rw [searchLoop_flat, searchFlat_one k.x o]
  · rfl
  · intro p hp
    rw [mem_visits, List.mem_map] at hp
    obtain ⟨⟨c, hc, hc'⟩, hm⟩ := hp
    rw [← hc']
    by_cases he : p.2 = o
    · obtain ⟨b, hb⟩ := critTexts_total k p.2 (ht _ hm) c ((hcr c).1 hc)
      have e : critTest {} .any k.x c p.2 = .ok (if b then some k.x else none) := by
        unfold critTest
        rw [hb]; rfl
      cases b with
      | true => exact Or.inr ⟨he, e⟩
      | false => exact Or.inl e
    · left
      refine critTest_untold k hk p.2 (ht _ hm) (hu _ ?_) c ((hcr c).1 hc)
      simp only [List.mem_append, List.mem_cons] at hm ⊢
      tauto
  · obtain ⟨c, hc, hs⟩ := told_satisfies k hk o ho
    refine ⟨(critTest {} .any k.x c, o), ?_, ?_⟩
    · rw [mem_visits, List.mem_map]
      exact ⟨⟨c, (hcr c).2 hc, rfl⟩, by simp⟩
    · obtain ⟨b, hb⟩ := critTexts_total k o (ht o (by simp)) c hc
      have e : critTest {} .any k.x c o = .ok (if b then some k.x else none) := by
        unfold critTest
        rw [hb]; rfl
      rcases critTest_iff {} .any k.x c o _ e with ⟨hn, _⟩ | ⟨_, hs'⟩
      · show critTest {} .any k.x c o = _
        rw [e, hn]
      · exact absurd hs hs'

/-- the built-in specifications -/
abbrev loadedTwo : CfTwo := ⟨loadedVars, loadedCoords⟩

theorem found_untold (k : Known) (hk : KnownFacts k) (dsa : DSA) (vars : Bool) (ht : ∀ o ∈ dsa.objs vars, CritTexts k o) (hu : ∀ o ∈ dsa.objs vars, Untold k o) :
    FoundIn {} loadedTwo dsa vars .any k.x none := by
  cases vars with
  | false =>
    obtain ⟨spec, hs, hcr⟩ := hk.coord
    exact Or.inr ⟨spec, [], hs, search_untold k hk.toKnownPlain _ spec (fun c hc => (hcr c).1 hc) ht hu, rfl⟩
  | true =>
    cases hl : lookupS k.x loadedVars with
    | none => exact Or.inl ⟨hl, rfl⟩
    | some spec => exact Or.inr ⟨spec, [], hl, search_untold k hk.toKnownPlain _ spec (hk.var spec hl) ht hu, rfl⟩

theorem found_array (k : Known) (hk : KnownFacts k) (o : DObj) (pre post : List DObj) (ht : ∀ y ∈ pre ++ o :: post, CritTexts k y)
    (hu : ∀ y ∈ pre ++ post, Untold k y) (ho : Told k o) (vars : Option (List DObj)) :
    FoundIn {} loadedTwo ⟨vars, pre ++ o :: post⟩ false .any k.x (some (o, k.x)) := by
  obtain ⟨spec, hs, hcr⟩ := hk.coord
  exact Or.inr ⟨spec, [(o, k.x)], hs, search_told k hk.toKnownPlain pre post o spec hcr ht hu ho, rfl⟩

/-- **C178** (found): with the built-in specifications, in an array or a dataset in which one coordinate `o` is told to be the coordinate `k` by its name, its standard name, its units or its
axis, and nothing tells this of the other coordinates and of the data variables, the getter of `k` gives `o`, whatever the mode of errors. This is so for both kinds of getters: `get_lon`,
`get_lat`, `get_depth` and `get_altitude` (`getCoordAny`), and `get_time` and `get_level` (`getCoordStrict`). -/
theorem C178_found_partial (k : Known) (hk : k ∈ knownCoords) (errors : EMode) (vars : Option (List DObj)) (pre post : List DObj) (o : DObj)
    (hv : ∀ l, vars = some l → ∀ y ∈ l, CritTexts k y ∧ Untold k y) (ht : ∀ y ∈ pre ++ o :: post, CritTexts k y)
    (hu : ∀ y ∈ pre ++ post, Untold k y) (ho : Told k o) :
    getCoordAny {} loadedTwo ⟨vars, pre ++ o :: post⟩ k.x errors = .ok (some (o, k.x), 0) ∧
    getCoordStrict {} loadedTwo ⟨vars, pre ++ o :: post⟩ k.x errors = .ok (some (o, k.x), 0) := by
  have hf := known_facts k hk
  have hc := found_array k hf o pre post ht hu ho vars
  constructor
  · cases vars with
    | none =>
      unfold getCoordAny specsSearch
      show ((specsLoop {} loadedTwo ⟨none, pre ++ o :: post⟩ .any k.x [false, true]).bind _).mapError _ = _
      unfold specsLoop
      rw [hc.search]
      rfl
    | some l =>
      refine C61_found_partial {} loadedTwo ⟨some l, pre ++ o :: post⟩ k.x errors none (some (o, k.x)) (o, k.x) ?_ hc rfl
      exact found_untold k hf _ true (fun y hy => (hv l rfl y hy).1) (fun y hy => (hv l rfl y hy).2)
  · obtain ⟨spec, hs, hcr⟩ := hf.coord
    exact C61_strict_found_partial {} loadedTwo _ k.x errors spec (o, k.x) hs (search_told k hf.toKnownPlain pre post o spec hcr ht hu ho)

/-- **C178 is violated** (not found): when nothing tells that a coordinate or a data variable is `k`, `get_lon`, `get_lat`, `get_depth` and `get_altitude` give nothing, with a warning, and
`get_time` and `get_level` raise, whatever the mode of errors. -/
theorem C178_missing_violated (k : Known) (hk : k ∈ knownCoords) (errors : EMode) (dsa : DSA)
    (hv : ∀ y ∈ dsa.dataVars.getD [] ++ dsa.coords, CritTexts k y ∧ Untold k y) :
    getCoordAny {} loadedTwo dsa k.x errors = .ok (none, 1) ∧ getCoordStrict {} loadedTwo dsa k.x errors = .error (.search .notFound) := by
  have hf := known_facts k hk
  have hobj : ∀ b : Bool, ∀ y ∈ dsa.objs b, CritTexts k y ∧ Untold k y := by
    intro b y hy
    refine hv y ?_
    rw [List.mem_append]
    unfold DSA.objs at hy
    cases b with
    | false => exact Or.inr hy
    | true =>
      cases hd : dsa.dataVars with
      | none => rw [hd] at hy; exact Or.inr hy
      | some l => rw [hd] at hy; exact Or.inl hy
  constructor
  · refine C61_not_found_violated {} loadedTwo dsa k.x errors ?_ ?_
    · exact found_untold k hf dsa true (fun y hy => (hobj true y hy).1) (fun y hy => (hobj true y hy).2)
    · exact found_untold k hf dsa false (fun y hy => (hobj false y hy).1) (fun y hy => (hobj false y hy).2)
  · obtain ⟨spec, hs, hcr⟩ := hf.coord
    exact C61_strict_violated {} loadedTwo dsa k.x errors spec hs
      (search_untold k hf.toKnownPlain _ spec (fun c hc => (hcr c).1 hc) (fun y hy => (hobj false y hy).1) (fun y hy => (hobj false y hy).2))

/-- the coordinate with this name in the table -/
def knownAt (i : Nat) : Known := knownCoords.getD i ⟨[], [], [], [], none⟩

/-- **C178 is violated** for the vertical coordinates, because their common axis is enough: in any array with one coordinate `o` whose axis is `Z`, whatever its name and its standard name are (it
may be an altitude, or a level), and other coordinates that are told to be no depth, altitude or level, the three of `get_depth`, `get_altitude` and `get_level`, and `get_vertical`, give `o`. -/
theorem C178_vertical_violated (errors : EMode) (pre post : List DObj) (o : DObj) (s : Str) (ho : o.get "axis".toList = some (.str s)) (hs : lower (strip s) = ['z'])
    (ht : ∀ y ∈ pre ++ o :: post, TextOrNone y "standard_name".toList ∧ TextOrNone y "axis".toList) (hu : ∀ y ∈ pre ++ post, ∀ k ∈ knownCoords, k.axis = some 'z' → Untold k y) :
    getCoordAny {} loadedTwo ⟨none, pre ++ o :: post⟩ "depth".toList errors = .ok (some (o, "depth".toList), 0) ∧
    getCoordAny {} loadedTwo ⟨none, pre ++ o :: post⟩ "altitude".toList errors = .ok (some (o, "altitude".toList), 0) ∧
    getCoordStrict {} loadedTwo ⟨none, pre ++ o :: post⟩ "level".toList errors = .ok (some (o, "level".toList), 0) ∧
    getVertical {} loadedTwo ⟨none, pre ++ o :: post⟩ errors = .ok (some (o, "depth".toList), 0) := by
  have hct : ∀ y ∈ pre ++ o :: post, ∀ k ∈ knownCoords, k.axis = some 'z' → CritTexts k y := by
    intro y hy k hk hz
    refine ⟨(ht y hy).1, fun hn => absurd ?_ hn, fun _ => (ht y hy).2⟩
    simp only [knownCoords, List.mem_cons, List.not_mem_nil, or_false] at hk
    rcases hk with rfl | rfl | rfl | rfl | rfl | rfl
    · cases hz
    · cases hz
    · rfl
    · rfl
    · rfl
    · rfl
  have go : ∀ k ∈ knownCoords, k.axis = some 'z' → getCoordAny {} loadedTwo ⟨none, pre ++ o :: post⟩ k.x errors = .ok (some (o, k.x), 0) ∧
      getCoordStrict {} loadedTwo ⟨none, pre ++ o :: post⟩ k.x errors = .ok (some (o, k.x), 0) := by
    intro k hk hz
    exact C178_found_partial k hk errors none pre post o (by simp) (fun y hy => hct y hy k hk hz) (fun y hy => hu y hy k hk hz) (Or.inr (Or.inr (Or.inr ⟨s, 'z', ho, hz, hs⟩)))
  have hd : knownAt 3 ∈ knownCoords ∧ knownAt 4 ∈ knownCoords ∧ knownAt 5 ∈ knownCoords := by simp [knownAt, knownCoords]
  refine ⟨(go (knownAt 3) hd.1 rfl).1, (go (knownAt 4) hd.2.1 rfl).1, (go (knownAt 5) hd.2.2 rfl).2, ?_⟩
  have hc := found_array (knownAt 3) (known_facts _ hd.1) o pre post (fun y hy => hct y hy _ hd.1 rfl) (fun y hy => hu y hy _ hd.1 rfl) (Or.inr (Or.inr (Or.inr ⟨s, 'z', ho, rfl, hs⟩))) none
  have e : specsSearch {} loadedTwo ⟨none, pre ++ o :: post⟩ .any "depth".toList .ignore = .ok (some (o, "depth".toList), 0) := by
    unfold specsSearch
    show (specsLoop {} loadedTwo ⟨none, pre ++ o :: post⟩ .any "depth".toList [false, true]).bind _ = _
    unfold specsLoop
    have h2 := hc.search
    have h3 : (knownAt 3).x = "depth".toList := rfl
    rw [h3] at h2
    rw [h2]
    rfl
  unfold getVertical
  rw [e]
  rfl

/-- an array with a name and texts as attributes -/
def exObj (n : String) (attrs : List (Str × Str)) : DObj := ⟨some n.toList, fun k => (lookupS k attrs).map AVal.str⟩

/-- a case: the coordinates `time`, `Latitude` and `alt` (with the axis `Z`) of an array, of which nothing tells that they are longitudes, and `nav_lon_t` that is told to be one -/
example : Told (knownAt 0) (exObj "nav_lon_t" []) ∧
    (∀ y ∈ [exObj "time" [], exObj "Latitude" [("units".toList, "degrees_north".toList)], exObj "alt" [("axis".toList, "Z".toList)]],
      Untold (knownAt 0) y ∧ CritTexts (knownAt 0) y) ∧ (exObj "alt" [("axis".toList, "Z".toList)]).get "axis".toList = some (.str "Z".toList) := by
  refine ⟨Or.inl ⟨_, rfl, "nav_lon".toList, by decide, Or.inr ⟨"t".toList, ⟨by decide, by decide⟩, by decide⟩⟩, ?_, by decide⟩
  have go : ∀ (n : String) (l : List (Str × Str)), (∀ m ∈ (knownAt 0).names, lower n.toList ≠ m ∧ lower (strip n.toList) ≠ m ∧ ¬ (m ++ "_".toList) <+: lower n.toList) →
      lookupS "standard_name".toList l = none → (∀ s, lookupS "units".toList l = some s → lower (strip s) ∉ lonUnits) → Untold (knownAt 0) (exObj n l) ∧ CritTexts (knownAt 0) (exObj n l) := by
    intro n l h1 h2 h3
    have hg : ∀ a : Str, a ≠ "name".toList → (exObj n l).get a = (lookupS a l).map AVal.str := by
      intro a ha
      unfold DObj.get
      rw [if_neg ha]
      rfl
    have htx : ∀ a : Str, a ≠ "name".toList → TextOrNone (exObj n l) a := by
      intro a ha
      unfold TextOrNone
      rw [hg a ha]
      cases lookupS a l with
      | none => exact Or.inl rfl
      | some s => exact Or.inr ⟨s, rfl⟩
    refine ⟨⟨?_, ?_, ?_, ?_⟩, htx _ (by decide), fun _ => htx _ (by decide), fun _ => htx _ (by decide)⟩
    · intro s hs m hm
      have : s = n.toList := (Option.some.inj hs).symm
      subst this
      exact h1 m hm
    · intro s hs
      rw [hg _ (by decide), h2] at hs
      cases hs
    · intro s hs
      rw [hg _ (by decide)] at hs
      cases hl : lookupS "units".toList l with
      | none => rw [hl] at hs; cases hs
      | some t =>
        rw [hl] at hs
        simp only [Option.map_some, Option.some.injEq, AVal.str.injEq] at hs
        subst hs
        exact h3 t hl
    · intro s a _ ha
      cases ha
  intro y hy
  simp only [List.mem_cons, List.not_mem_nil, or_false] at hy
  rcases hy with rfl | rfl | rfl
  · exact go _ _ (by decide) (by decide) (by intro s hs; cases hs)
  · refine go _ _ (by decide) (by decide) ?_
    intro s hs
    have e : lookupS "units".toList [("units".toList, "degrees_north".toList)] = some "degrees_north".toList := by decide
    rw [e] at hs
    have : s = "degrees_north".toList := (Option.some.inj hs).symm
    subst this
    decide
  · refine go _ _ (by decide) (by decide) ?_
    intro s hs
    have e : lookupS "units".toList [("axis".toList, "Z".toList)] = none := by decide
    rw [e] at hs
    cases hs

end Xoa
