import Verif.CfBuiltinProps

/-!
# Recognition of coordinates that have an axis, with the built-in CF specifications
-/

set_option maxRecDepth 20000

namespace Xoa

theorem matchAnyIn_skip (da : DObj) (pre post : CfCat) (h : ∀ p ∈ pre, matchCrits {} .any da (orderedCrits p.1 p.2) = .ok false) :
    matchAnyIn {} .any da (pre ++ post) = matchAnyIn {} .any da post := by
  induction pre with
  | nil => rfl
  | cons p rest ih =>
    obtain ⟨n, spec⟩ := p
    rw [List.cons_append, matchAnyIn, h (n, spec) (List.mem_cons_self ..)]
    exact ih fun q hq => h q (List.mem_cons_of_mem _ hq)

/-- one of the built-in coordinates -/
def coordAt (i : Nat) : Str × CfSpec := builtinCoords.getD i ([], ⟨[], [], []⟩)

theorem coords_head : builtinCoords = coordAt 0 :: coordAt 1 :: coordAt 2 :: coordAt 3 :: builtinCoords.drop 4 := rfl

/-- the axis that is asked by `time`, the first coordinate -/
theorem time_crits : orderedCrits (coordAt 0).1 (coordAt 0).2 =
    [("name".toList, .list ["time".toList]), ("standard_name".toList, .list ["time".toList]), ("axis".toList, .text "T".toList)] := by
  decide +kernel

theorem lon_crits : orderedCrits (coordAt 1).1 (coordAt 1).2 =
    [("standard_name".toList, .list ["longitude".toList, "longitudes".toList]),
     ("name".toList, .list ["lon".toList, "longitude".toList, "nav_lon".toList]),
     ("units".toList, .list ["degrees_east".toList, "degree_east".toList, "degree_e".toList, "degrees_e".toList, "degreee".toList, "degreese".toList])] := by
  decide +kernel

theorem lat_crits : orderedCrits (coordAt 2).1 (coordAt 2).2 =
    [("standard_name".toList, .list ["latitude".toList]),
     ("name".toList, .list ["lat".toList, "latitude".toList, "nav_lat".toList, "latitudes".toList]),
     ("units".toList, .list ["degrees_north".toList, "degree_north".toList, "degree_n".toList, "degrees_n".toList, "degreen".toList, "degreesn".toList])] := by
  decide +kernel

theorem x_crits : orderedCrits (coordAt 3).1 (coordAt 3).2 =
    [("name".toList, .list ["x".toList, "xi".toList]), ("standard_name".toList, .list ["x_grid_index".toList])] ++ ("axis".toList, .none_) :: [] := by
  decide +kernel


/-- the units of longitudes and those of latitudes -/
def lonUnits : List Str := ["degrees_east".toList, "degree_east".toList, "degree_e".toList, "degrees_e".toList, "degreee".toList, "degreese".toList]
def latUnits : List Str := ["degrees_north".toList, "degree_north".toList, "degree_n".toList, "degrees_n".toList, "degreen".toList, "degreesn".toList]

theorem plainSat (da : DObj) (attr : Str) (r : Refs) (hs : sgAttrOf attr = none) (t : Str) (ht : da.get attr = some (.str t))
    (h : Satisfies {} .any da (attr, r)) : ∃ ref ∈ r.all, lower (strip t) = lower (strip ref) := by
  obtain ⟨v, hv, ref, hr, hm⟩ := h
  rw [ht] at hv
  injection hv with hv
  injection hv with hv
  subst hv
  rcases hm with ⟨_, _, h⟩ | ⟨a, ha, _⟩
  · exact ⟨ref, hr, h⟩
  · rw [hs] at ha; cases ha

theorem lon_units_lower : ∀ r ∈ lonUnits, lower (strip r) = r := by decide
theorem lat_units_lower : ∀ r ∈ latUnits, lower (strip r) = r := by decide

theorem axis_of_time (da : DObj) (ha : ∀ t, da.get "axis".toList = some (.str t) → lower (strip t) ≠ "t".toList) (h : TextOrNone da "axis".toList) :
    ∀ c ∈ orderedCrits (coordAt 0).1 (coordAt 0).2, c.1 = "axis".toList ∨ c.1 = "units".toList →
      da.get c.1 = none ∨ c.2 ≠ .none_ ∧ (∃ t, da.get c.1 = some (.str t)) ∧ ¬ Satisfies {} .any da c := by
  rw [time_crits]
  intro c hc hcau
  simp only [List.mem_cons, List.not_mem_nil, or_false] at hc
  rcases hc with rfl | rfl | rfl
  · rcases hcau with h' | h' <;> exact absurd h' (by decide)
  · rcases hcau with h' | h' <;> exact absurd h' (by decide)
  · rcases h with h | ⟨t, ht⟩
    · exact Or.inl h
    · refine Or.inr ⟨by simp, ⟨t, ht⟩, fun hsat => ?_⟩
      obtain ⟨ref, hr, he⟩ := plainSat da _ _ (by decide) t ht hsat
      have : ref = ['T'] := by simpa [Refs.all] using hr
      rw [this] at he
      exact ha t ht (he.trans (by decide))

theorem units_of_lon (da : DObj) (hu : ∀ t, da.get "units".toList = some (.str t) → lower (strip t) ∉ lonUnits) (h : TextOrNone da "units".toList) :
    ∀ c ∈ orderedCrits (coordAt 1).1 (coordAt 1).2, c.1 = "axis".toList ∨ c.1 = "units".toList →
      da.get c.1 = none ∨ c.2 ≠ .none_ ∧ (∃ t, da.get c.1 = some (.str t)) ∧ ¬ Satisfies {} .any da c := by
  rw [lon_crits]
  intro c hc hcau
  simp only [List.mem_cons, List.not_mem_nil, or_false] at hc
  rcases hc with rfl | rfl | rfl
  · rcases hcau with h' | h' <;> exact absurd h' (by decide)
  · rcases hcau with h' | h' <;> exact absurd h' (by decide)
  · rcases h with h | ⟨t, ht⟩
    · exact Or.inl h
    · refine Or.inr ⟨by simp, ⟨t, ht⟩, fun hsat => ?_⟩
      obtain ⟨ref, hr, he⟩ := plainSat da _ _ (by decide) t ht hsat
      have hm : ref ∈ lonUnits := hr
      rw [lon_units_lower ref hm] at he
      exact hu t ht (he ▸ hm)

theorem units_of_lat (da : DObj) (hu : ∀ t, da.get "units".toList = some (.str t) → lower (strip t) ∉ latUnits) (h : TextOrNone da "units".toList) :
    ∀ c ∈ orderedCrits (coordAt 2).1 (coordAt 2).2, c.1 = "axis".toList ∨ c.1 = "units".toList →
      da.get c.1 = none ∨ c.2 ≠ .none_ ∧ (∃ t, da.get c.1 = some (.str t)) ∧ ¬ Satisfies {} .any da c := by
  rw [lat_crits]
  intro c hc hcau
  simp only [List.mem_cons, List.not_mem_nil, or_false] at hc
  rcases hc with rfl | rfl | rfl
  · rcases hcau with h' | h' <;> exact absurd h' (by decide)
  · rcases hcau with h' | h' <;> exact absurd h' (by decide)
  · rcases h with h | ⟨t, ht⟩
    · exact Or.inl h
    · refine Or.inr ⟨by simp, ⟨t, ht⟩, fun hsat => ?_⟩
      obtain ⟨ref, hr, he⟩ := plainSat da _ _ (by decide) t ht hsat
      have hm : ref ∈ latUnits := hr
      rw [lat_units_lower ref hm] at he
      exact hu t ht (he ▸ hm)

theorem plain_at (i : Nat) (h : i < 10) : plainCrits (coordAt i) = true := by
  have hm : coordAt i ∈ builtinCoords := by
    have : ∀ j : Fin 10, coordAt j.1 ∈ builtinCoords := by decide +kernel
    exact this ⟨i, h⟩
  exact List.all_eq_true.1 coords_plain _ hm

/-- the items before the one that is found -/
theorem textIn_before (a : SGAttr) (g : Str × CfSpec → List Str) (pre post : CfCat) (t x : Str) (h : textIn a g (pre ++ post) t = some x) (hx : x ∉ pre.map Prod.fst) :
    ∀ p ∈ pre, hit a (g p) t = false := by
  induction pre with
  | nil => intro p hp; cases hp
  | cons q rest ih =>
    unfold textIn at h
    rw [List.cons_append, List.find?_cons] at h
    cases hq : hit a (g q) t with
    | true =>
      rw [hq] at h
      simp only [Option.map_some, Option.some.injEq] at h
      exact absurd (by rw [← h]; simp) hx
    | false =>
      rw [hq] at h
      intro p hp
      rcases List.mem_cons.1 hp with rfl | hp
      · exact hq
      · exact ih h (fun hm => hx (by simp only [List.map_cons, List.mem_cons]; exact Or.inr hm)) p hp

theorem head_names : [coordAt 0, coordAt 1, coordAt 2, coordAt 3].map Prod.fst = ["time".toList, "lon".toList, "lat".toList, "x".toList] := by decide +kernel

/-- **C174 is violated** for the coordinates with an axis: every array without standard name whose name is a name of one of the built-in coordinates but `time`, `lon`, `lat` and `x`
(such as `depth`, `altitude` or `level`), and that has an axis attribute that is a text (such as `Z`) other than `T`, makes the question which coordinate it is
raise a TypeError, because the file has no axis for `x`. -/
theorem C174_axis_violated (x : Str) (spec : CfSpec) (hx : (x, spec) ∈ loadedCoords) (n : Str) (hn : n ∈ x :: spec.names)
    (hfree : ∀ y, (x, n, y) ∉ coordNamesTaken) (hother : x ∉ ["time".toList, "lon".toList, "lat".toList, "x".toList])
    (da : DObj) (s : Str) (hname : da.name = some s) (hs : NameText n s) (hstd : da.get "standard_name".toList = none)
    (axis : Str) (ha : da.get "axis".toList = some (.str axis)) (haT : lower (strip axis) ≠ "t".toList)
    (hu : TextOrNone da "units".toList) (hdeg : ∀ t, da.get "units".toList = some (.str t) → lower (strip t) ∉ lonUnits ++ latUnits) :
    matchAny {} loadedCoords .any da = .error .typeError := by
  rw [loadedCoords_eq] at hx ⊢
  have ht := ref_in .name (by decide) allNames builtinCoords coordNameLocs coordNamesTaken coordNames_clean coordNames_safe (x, spec) hx n hn hfree
    (lower s) (nameText_fmt n s hs)
  have hbefore := textIn_before .name allNames [coordAt 0, coordAt 1, coordAt 2, coordAt 3] (builtinCoords.drop 4) (lower s) x
    (by rw [← ht]; rfl) (by rw [head_names]; exact hother)
  have hfalse : ∀ p ∈ [coordAt 0, coordAt 1, coordAt 2, coordAt 3],
      hits ((textAttr da "standard_name".toList).map lower) (da.name.map lower) p = false := by
    intro p hp
    rw [textAttr_none da _ hstd, hname]
    show (false || hit .name (allNames p) (lower s)) = false
    rw [hbefore p hp]; rfl
  have h0 := matchCrits_hits da (coordAt 0) (plain_at 0 (by decide)) (Or.inl hstd)
    (axis_of_time da (fun t h => by rw [ha] at h; injection h with h; injection h with h; rw [← h]; exact haT) (Or.inr ⟨axis, ha⟩))
  have h1 := matchCrits_hits da (coordAt 1) (plain_at 1 (by decide)) (Or.inl hstd)
    (units_of_lon da (fun t h hm => hdeg t h (List.mem_append_left _ hm)) hu)
  have h2 := matchCrits_hits da (coordAt 2) (plain_at 2 (by decide)) (Or.inl hstd)
    (units_of_lat da (fun t h hm => hdeg t h (List.mem_append_right _ hm)) hu)
  rw [hfalse _ (by simp)] at h0 h1 h2
  have hx3 : matchCrits {} .any da [("name".toList, .list ["x".toList, "xi".toList]), ("standard_name".toList, .list ["x_grid_index".toList])] = .ok false := by
    have hget : da.get "name".toList = some (.str s) := by simp [DObj.get, hname]
    obtain ⟨b, hb⟩ := C44_match_total_partial {} .any da [("name".toList, .list ["x".toList, "xi".toList]), ("standard_name".toList, .list ["x_grid_index".toList])]
      (by simp) (by
        intro c hc
        simp only [List.mem_cons, List.not_mem_nil, or_false] at hc
        rcases hc with rfl | rfl
        · exact Or.inr ⟨by simp, Or.inl ⟨s, hget⟩⟩
        · exact Or.inl hstd)
    rw [hb]
    have hiff := matchCrits_iff {} .any da _ b hb
    cases b with
    | false => rfl
    | true =>
      exfalso
      obtain ⟨c, hc, v, hv, ref, hr, hm⟩ := hiff.1 rfl
      simp only [List.mem_cons, List.not_mem_nil, or_false] at hc
      rcases hc with rfl | rfl
      · have h3 := hbefore (coordAt 3) (by simp)
        have hall : allNames (coordAt 3) = ["x".toList, "xi".toList] := by decide +kernel
        rw [hall] at h3
        rw [hget] at hv
        injection hv with hv
        injection hv with hv
        subst hv
        have := (hit_iff "name".toList .name (by decide) ["x".toList, "xi".toList] s).2 ⟨ref, hr, hm⟩
        rw [this] at h3; cases h3
      · rw [show da.get ("standard_name".toList, Refs.list ["x_grid_index".toList]).1 = none from hstd] at hv
        cases hv
  have hsplit : builtinCoords = [coordAt 0, coordAt 1, coordAt 2] ++ ((coordAt 3).1, (coordAt 3).2) :: builtinCoords.drop 4 := rfl
  rw [hsplit]
  refine C44_none_criterion_violated {} .any da _ _ _ _ _ [] "axis".toList (.str axis) x_crits ?_ hx3 ha
  have := matchAnyIn_skip da [coordAt 0, coordAt 1, coordAt 2] [] (by
    intro p hp
    simp only [List.mem_cons, List.not_mem_nil, or_false] at hp
    rcases hp with rfl | rfl | rfl
    · exact h0
    · exact h1
    · exact h2)
  rw [List.append_nil] at this
  exact this


/-- the criteria of an item are all answered -/
theorem total_at (da : DObj) (p : Str × CfSpec) (hs : TextOrNone da "standard_name".toList) (ha : TextOrNone da "axis".toList)
    (hu : TextOrNone da "units".toList) (hp : plainCrits p = true) (hn : ∀ c ∈ orderedCrits p.1 p.2, c.2 ≠ .none_) :
    ∃ b, matchCrits {} .any da (orderedCrits p.1 p.2) = .ok b := by
  simp only [plainCrits, Bool.and_eq_true, List.all_eq_true, Bool.or_eq_true, beq_iff_eq] at hp
  refine C44_match_total_partial {} .any da _ (by simp) fun c hc => ?_
  have hnm : TextOrNone da "name".toList := by
    unfold TextOrNone
    rw [show da.get "name".toList = da.name.map AVal.str by simp [DObj.get]]
    cases da.name with
    | none => exact Or.inl rfl
    | some s => exact Or.inr ⟨s, rfl⟩
  have hgo : TextOrNone da c.1 := by
    rcases hp.1.1 c hc with ((h | h) | h) | h
    · rw [h]; exact hnm
    · rw [h]; exact hs
    · rw [h]; exact ha
    · rw [h]; exact hu
  rcases hgo with h | h
  · exact Or.inl h
  · exact Or.inr ⟨hn c hc, Or.inl h⟩

theorem found_at (da : DObj) (pre post : CfCat) (x : Str) (spec : CfSpec)
    (hpre : ∀ p ∈ pre, matchCrits {} .any da (orderedCrits p.1 p.2) = .ok false)
    (hx : matchCrits {} .any da (orderedCrits x spec) = .ok true) : matchAny {} (pre ++ (x, spec) :: post) .any da = .ok (some x) := by
  unfold matchAny
  rw [matchAnyIn_skip da pre _ hpre, matchAnyIn, hx]
  rfl

/-- an item one of whose names is the name of the array is matched -/
theorem named_true (da : DObj) (p : Str × CfSpec) (s : Str) (hname : da.name = some s) (hp : plainCrits p = true)
    (hh : hit .name (allNames p) (lower s) = true) (b : Bool) (hb : matchCrits {} .any da (orderedCrits p.1 p.2) = .ok b) : b = true := by
  rw [matchCrits_iff {} .any da _ b hb]
  simp only [plainCrits, Bool.and_eq_true] at hp
  refine ⟨_, List.contains_iff_mem.1 hp.1.2, s, by simp [DObj.get, hname], ?_⟩
  exact (hit_iff "name".toList .name (by decide) _ s).1 hh

/-- an item that is found by a text is hit by it -/
theorem textIn_hit (a : SGAttr) (g : Str × CfSpec → List Str) (cat : CfCat) (t x : Str) (h : textIn a g cat t = some x) :
    ∃ spec, (x, spec) ∈ cat ∧ hit a (g (x, spec)) t = true := by
  unfold textIn at h
  cases hf : cat.find? (fun p => hit a (g p) t) with
  | none => rw [hf] at h; simp at h
  | some p =>
    rw [hf] at h
    simp only [Option.map_some, Option.some.injEq] at h
    subst h
    exact ⟨p.2, List.mem_of_find?_eq_some hf, by have := List.find?_some hf; exact this⟩

theorem coord_keys : builtinCoords.map Prod.fst = ["time", "lon", "lat", "x", "y", "depth", "altitude", "sig", "level", "forecast"].map String.toList := by
  decide +kernel

theorem coord_key_at (i : Nat) (h : i < 10) (spec : CfSpec) (hm : ((coordAt i).1, spec) ∈ builtinCoords) : spec = (coordAt i).2 := by
  have hnd : (builtinCoords.map Prod.fst).Nodup := by rw [coord_keys]; decide
  have hin : coordAt i ∈ builtinCoords := by
    have : ∀ j : Fin 10, coordAt j.1 ∈ builtinCoords := by decide +kernel
    exact this ⟨i, h⟩
  have hinj : ∀ (l : CfCat), (l.map Prod.fst).Nodup → ∀ p ∈ l, ∀ q ∈ l, p.1 = q.1 → p = q := by
    intro l
    induction l with
    | nil => intro _ p hp; cases hp
    | cons a l ih =>
      intro hn p hp q hq e
      rw [List.map_cons, List.nodup_cons] at hn
      rcases List.mem_cons.1 hp with rfl | hp' <;> rcases List.mem_cons.1 hq with rfl | hq'
      · rfl
      · exact (hn.1 (by rw [e]; exact List.mem_map_of_mem hq')).elim
      · exact (hn.1 (by rw [← e]; exact List.mem_map_of_mem hp')).elim
      · exact ih hn.2 p hp' q hq' e
  have := hinj builtinCoords hnd _ hm _ hin rfl
  rw [← this]

/-- **C174 (time, longitude and latitude).** Every array whose name is a name or alias of `time`, `lon` or `lat` (in any case, with or without a location) and that has no standard name
is recognised as such, with the axis of this coordinate or no axis, and with any units (a text) except that those of a latitude are not in degrees east. -/
theorem C174_horizontal (x : Str) (axis : Str) (hxa : (x, axis) ∈ [("time".toList, "t".toList), ("lon".toList, "x".toList), ("lat".toList, "y".toList)])
    (spec : CfSpec) (hx : (x, spec) ∈ loadedCoords) (n : Str) (hn : n ∈ x :: spec.names)
    (da : DObj) (s : Str) (hname : da.name = some s) (hs : NameText n s) (hstd : da.get "standard_name".toList = none)
    (ha : da.get "axis".toList = none ∨ ∃ t, da.get "axis".toList = some (.str t) ∧ lower (strip t) = axis)
    (hu : da.get "units".toList = none ∨ ∃ t, da.get "units".toList = some (.str t) ∧ (x = "lat".toList → lower (strip t) ∉ lonUnits)) :
    matchAny {} loadedCoords .any da = .ok (some x) := by
  rw [loadedCoords_eq] at hx ⊢
  have hat : TextOrNone da "axis".toList := by
    rcases ha with h | ⟨t, h, _⟩
    · exact Or.inl h
    · exact Or.inr ⟨t, h⟩
  have hut : TextOrNone da "units".toList := by
    rcases hu with h | ⟨t, h, _⟩
    · exact Or.inl h
    · exact Or.inr ⟨t, h⟩
  have hfree : ∀ y, (x, n, y) ∉ coordNamesTaken := by
    intro y hy
    have hall : ∀ t ∈ coordNamesTaken, t.1 = "level".toList := by decide
    have this : x = "level".toList := hall _ hy
    simp only [List.mem_cons, List.not_mem_nil, or_false, Prod.mk.injEq] at hxa
    rcases hxa with ⟨h, _⟩ | ⟨h, _⟩ | ⟨h, _⟩ <;> rw [h] at this <;> exact absurd this (by decide)
  have ht := ref_in .name (by decide) allNames builtinCoords coordNameLocs coordNamesTaken coordNames_clean coordNames_safe (x, spec) hx n hn hfree
    (lower s) (nameText_fmt n s hs)
  obtain ⟨spec', hm', hhit⟩ := textIn_hit _ _ _ _ _ ht
  have hfalse : ∀ pre post, builtinCoords = pre ++ post → x ∉ pre.map Prod.fst → ∀ p ∈ pre,
      hits ((textAttr da "standard_name".toList).map lower) (da.name.map lower) p = false := by
    intro pre post he hxp p hp
    rw [textAttr_none da _ hstd, hname]
    show (false || hit .name (allNames p) (lower s)) = false
    rw [textIn_before .name allNames pre post (lower s) x (by rw [← he]; exact ht) hxp p hp]; rfl
  have hax : x ≠ "time".toList → ∀ t, da.get "axis".toList = some (.str t) → lower (strip t) ≠ "t".toList := by
    intro hne t h
    rcases ha with ha | ⟨t', ha, he⟩
    · rw [ha] at h; cases h
    · rw [ha] at h
      injection h with h
      injection h with h
      rw [← h, he]
      simp only [List.mem_cons, List.not_mem_nil, or_false, Prod.mk.injEq] at hxa
      rcases hxa with ⟨h1, _⟩ | ⟨_, h2⟩ | ⟨_, h2⟩
      · exact absurd h1 hne
      · rw [h2]; decide
      · rw [h2]; decide
  have e0 : (coordAt 0).1 = "time".toList := by decide +kernel
  have e1 : (coordAt 1).1 = "lon".toList := by decide +kernel
  have e2 : (coordAt 2).1 = "lat".toList := by decide +kernel
  simp only [List.mem_cons, List.not_mem_nil, or_false, Prod.mk.injEq] at hxa
  rcases hxa with ⟨rfl, rfl⟩ | ⟨rfl, rfl⟩ | ⟨rfl, rfl⟩
  · rw [← e0] at hm' hhit
    rw [coord_key_at 0 (by decide) spec' hm'] at hhit
    obtain ⟨b, hb⟩ := total_at da (coordAt 0) (Or.inl hstd) hat hut (plain_at 0 (by decide)) (by rw [time_crits]; decide)
    obtain rfl := named_true da (coordAt 0) s hname (plain_at 0 (by decide)) hhit b hb
    rw [← e0]
    exact found_at da [] _ (coordAt 0).1 (coordAt 0).2 (by simp) hb
  · rw [← e1] at hm' hhit
    rw [coord_key_at 1 (by decide) spec' hm'] at hhit
    obtain ⟨b, hb⟩ := total_at da (coordAt 1) (Or.inl hstd) hat hut (plain_at 1 (by decide)) (by rw [lon_crits]; decide)
    obtain rfl := named_true da (coordAt 1) s hname (plain_at 1 (by decide)) hhit b hb
    have h0 := matchCrits_hits da (coordAt 0) (plain_at 0 (by decide)) (Or.inl hstd) (axis_of_time da (hax (by decide)) hat)
    rw [hfalse [coordAt 0] (builtinCoords.drop 1) rfl (by simp only [List.map_cons, List.map_nil, e0]; decide) (coordAt 0) (by simp)] at h0
    rw [← e1]
    exact found_at da [coordAt 0] (builtinCoords.drop 2) (coordAt 1).1 (coordAt 1).2 (by intro p hp; rw [List.mem_singleton.1 hp]; exact h0) hb
  · rw [← e2] at hm' hhit
    rw [coord_key_at 2 (by decide) spec' hm'] at hhit
    obtain ⟨b, hb⟩ := total_at da (coordAt 2) (Or.inl hstd) hat hut (plain_at 2 (by decide)) (by rw [lat_crits]; decide)
    obtain rfl := named_true da (coordAt 2) s hname (plain_at 2 (by decide)) hhit b hb
    have hf := hfalse [coordAt 0, coordAt 1] (builtinCoords.drop 2) rfl (by simp only [List.map_cons, List.map_nil, e0, e1]; decide)
    have h0 := matchCrits_hits da (coordAt 0) (plain_at 0 (by decide)) (Or.inl hstd) (axis_of_time da (hax (by decide)) hat)
    have h1 := matchCrits_hits da (coordAt 1) (plain_at 1 (by decide)) (Or.inl hstd) (units_of_lon da (by
      intro t h
      rcases hu with hu | ⟨t', hu, he⟩
      · rw [hu] at h; cases h
      · rw [hu] at h
        injection h with h
        injection h with h
        rw [← h]; exact he rfl) hut)
    rw [hf (coordAt 0) (by simp)] at h0
    rw [hf (coordAt 1) (by simp)] at h1
    rw [← e2]
    refine found_at da [coordAt 0, coordAt 1] (builtinCoords.drop 3) (coordAt 2).1 (coordAt 2).2 ?_ hb
    intro p hp
    simp only [List.mem_cons, List.not_mem_nil, or_false] at hp
    rcases hp with rfl | rfl
    · exact h0
    · exact h1

end Xoa
