import Verif.SGLocHistProps

/-! # Merging several names (C242) -/

namespace Xoa

/-- `SGLocator.merge_attr` (xoa/cf.py:384-430) called with each text of the list in turn, on the text
given by the previous call -/
def mergeNames (sg : SG) (attr : SGAttr) (std : Bool) (value : Str) (values : List Str) : Except SGErr (Option Str) :=
  values.foldlM (fun acc v => mergeAttr sg attr acc (some v) .keep std) (some value)

/-- the text is one that can be formatted, and writing it in its standard form does not change the
blanks and underscores of a text without location -/
def mergeable (sg : SG) (attr : SGAttr) (std : Bool) (v : Str) : Prop :=
  (if std then isText v else isRoot attr v) ∧
  ((parseAttr sg attr v).2 = none → std = true → if attr = .longName then '_' ∉ v else ' ' ∉ v)

/-- a location that was read is made of letters, in lower case, and is not hidden by another one -/
theorem parsed_loc_good (sg : SG) (hreg : sg.regular) (attr : SGAttr)
    (hp : attr = .name → ∀ l ∈ sg.valid, sg.noPrefix l) (v l : Str) (h : (parseAttr sg attr v).2 = some l) :
    isLoc l ∧ lower l = l ∧ (attr = .name → sg.noPrefix l) := by
  have h' : parseAttr sg attr v = ((parseAttr sg attr v).1, some l) := by rw [← h]
  obtain ⟨h1, h2⟩ := C40_only_valid sg attr v _ l h'
  by_cases hv : sg.valid = []
  · obtain ⟨ha, hb⟩ := h2 hv
    refine ⟨ha, hb, fun _ y hy => ?_⟩
    rw [hv] at hy; simp at hy
  · obtain ⟨x, hx, rfl⟩ := h1 hv
    exact ⟨stdLoc_isLoc .standardName x (hreg.valid x hx), lower_lower x,
      fun ha => noPrefix_congr (lower_lower x).symm (hp ha x hx)⟩

/-- a text without location is still without location in its standard form -/
theorem outRoot_unlocated (sg : SG) (attr : SGAttr) (std : Bool) (v : Str) (hm : mergeable sg attr std v)
    (hn : (parseAttr sg attr v).2 = none) :
    parseAttr sg attr (outRoot sg attr v std) = (outRoot sg attr v std, none) ∧
      outRoot sg attr (outRoot sg attr v std) std = outRoot sg attr v std := by
  have hk : formatAttr sg attr v .keep std = .ok (outRoot sg attr v std) := by
    rw [formatAttr_keep, hn]
  obtain ⟨hre, hroot⟩ := parseAttr_none sg attr v hn
  have hrep : ∀ (a b : Char) (t : Str), a ∉ t → replaceC a b t = t := by
    intro a b t ht
    unfold replaceC
    conv => rhs; rw [← List.map_id t]
    apply List.map_congr_left
    intro c hcm
    rw [if_neg (fun e : c = a => ht (e ▸ hcm))]; rfl
  have hlow : lower (outRoot sg attr v std) = lower v := by
    unfold outRoot
    rw [hroot]
    cases std with
    | false => rfl
    | true =>
      have hc' := hm.2 hn rfl
      simp only [if_true]
      cases attr with
      | name => simp at hc'; rw [stdRoot, hrep _ _ _ hc']
      | standardName => simp at hc'; rw [stdRoot, hrep _ _ _ hc', lower_lower]
      | longName =>
        simp at hc'
        rw [stdRoot, ← capitalize_replace, hrep _ _ _ hc', lower_capitalize]
  have hre' := parseRe_none_congr sg attr v _ hlow.symm hre
  have hps : parseAttr sg attr (outRoot sg attr v std) = (outRoot sg attr v std, none) := by
    conv => lhs; unfold parseAttr
    rw [hre']
  refine ⟨hps, ?_⟩
  have e : ∀ x, parseAttr sg attr x = (x, none) → outRoot sg attr x std = if std then stdRoot attr x else x := by
    intro x hx; unfold outRoot; rw [hx]
  rw [e _ hps]
  cases std with
  | true => simp only [if_true]; unfold outRoot; simp only [if_true]; exact stdRoot_idem attr _
  | false => rfl

/-- the location argument for a location that was read or not -/
def locArgOf : Option Str → LocArg
  | some l => .str l
  | none => .no

/-- one call: what is written -/
theorem merge_written (sg : SG) (attr : SGAttr) (std : Bool) (v0 v1 : Str) :
    mergeAttr sg attr (some v0) (some v1) .keep std =
      (formatAttr sg attr v1 (locArgOf ((parseAttr sg attr v1).2 <|> (parseAttr sg attr v0).2)) std).map some := by
  unfold mergeAttr
  simp only [true_or, if_true]
  cases h1 : (parseAttr sg attr v1).2 with
  | some l => rfl
  | none =>
    cases h0 : (parseAttr sg attr v0).2 with
    | some l => rfl
    | none =>
      show Except.map some (formatAttr sg attr v1 .keep std) = Except.map some (formatAttr sg attr v1 .no std)
      rw [formatAttr_keep, h1]; rfl

/-- one call: what is read in the text written -/
theorem merge_read (sg : SG) (hreg : sg.regular) (attr : SGAttr) (hp : attr = .name → ∀ l ∈ sg.valid, sg.noPrefix l)
    (std : Bool) (v0 v1 s : Str) (h1 : mergeable sg attr std v1)
    (h : mergeAttr sg attr (some v0) (some v1) .keep std = .ok (some s)) :
    (parseAttr sg attr s).2 = ((parseAttr sg attr v1).2 <|> (parseAttr sg attr v0).2) ∧
      outRoot sg attr s std = outRoot sg attr v1 std := by
  rw [merge_written] at h
  cases hl : ((parseAttr sg attr v1).2 <|> (parseAttr sg attr v0).2) with
  | some l =>
    rw [hl] at h
    have hf : formatAttr sg attr v1 (.str l) std = .ok s := by
      cases hf : formatAttr sg attr v1 (.str l) std with
      | error e => simp [locArgOf, hf, Except.map] at h
      | ok w => simpa [locArgOf, hf, Except.map] using h
    have hll : isLoc l ∧ lower l = l ∧ (attr = .name → sg.noPrefix l) := by
      cases h1' : (parseAttr sg attr v1).2 with
      | some l' =>
        have : l' = l := by simpa [h1'] using hl
        exact this ▸ parsed_loc_good sg hreg attr hp v1 l' h1'
      | none =>
        have : (parseAttr sg attr v0).2 = some l := by simpa [h1'] using hl
        exact parsed_loc_good sg hreg attr hp v0 l this
    have := relocate_root sg hreg attr v1 l s std (outRoot_isRoot sg attr v1 std h1.1) hll.1 hll.2.2 hf
    refine ⟨?_, this.2⟩
    rw [this.1]; simp only [hll.2.1]
  | none =>
    rw [hl] at h
    have hn : (parseAttr sg attr v1).2 = none := by
      cases h1' : (parseAttr sg attr v1).2 with
      | none => rfl
      | some l' => simp [h1'] at hl
    have hs : outRoot sg attr v1 std = s := by
      have h : Except.ok (some (outRoot sg attr v1 std)) = (Except.ok (some s) : Except SGErr (Option Str)) := h
      simpa using h
    obtain ⟨a, b⟩ := outRoot_unlocated sg attr std v1 h1 hn
    rw [← hs]
    exact ⟨by rw [a], b⟩

/-- **C242**: merging any number of texts in turn writes the root of the last one at the last of
the locations that they carry (or without location if none carries one). -/
theorem C242_merge_all (sg : SG) (hreg : sg.regular) (attr : SGAttr)
    (hp : attr = .name → ∀ l ∈ sg.valid, sg.noPrefix l) (std : Bool) (values : List Str) :
    ∀ (value last : Str) (s : Option Str), (∀ v ∈ values, mergeable sg attr std v) →
    mergeNames sg attr std value (values ++ [last]) = .ok s →
    (formatAttr sg attr last (locArgOf (((value :: values) ++ [last]).filterMap
      (fun v => (parseAttr sg attr v).2)).getLast?) std).map some = .ok s := by
  induction values with
  | nil =>
    intro value last s _ h
    have h : mergeAttr sg attr (some value) (some last) .keep std = .ok s := by
      unfold mergeNames at h
      simp only [List.nil_append, List.foldlM_cons, List.foldlM_nil] at h
      cases hf : mergeAttr sg attr (some value) (some last) .keep std with
      | error e => rw [hf] at h; simp [bind, Except.bind] at h
      | ok w => rw [hf] at h; simpa [bind, Except.bind, pure, Except.pure] using h
    rw [merge_written] at h
    have e : ((parseAttr sg attr last).2 <|> (parseAttr sg attr value).2) =
        (([value] ++ [last]).filterMap (fun v => (parseAttr sg attr v).2)).getLast? := by
      cases h1 : (parseAttr sg attr last).2 <;> cases h0 : (parseAttr sg attr value).2 <;> simp [h1, h0]
    rw [← e]; exact h
  | cons v values ih =>
    intro value last s hm h
    unfold mergeNames at h
    rw [List.cons_append, List.foldlM_cons] at h
    cases hf : mergeAttr sg attr (some value) (some v) .keep std with
    | error e => rw [hf] at h; simp [bind, Except.bind] at h
    | ok w =>
      rw [hf] at h
      have hw : ∃ t, w = some t := by
        rw [merge_written] at hf
        cases hx : formatAttr sg attr v (locArgOf ((parseAttr sg attr v).2 <|> (parseAttr sg attr value).2)) std with
        | error e => rw [hx] at hf; simp [Except.map] at hf
        | ok t => rw [hx] at hf; exact ⟨t, by simpa [Except.map] using hf.symm⟩
      obtain ⟨t, rfl⟩ := hw
      have hr := (merge_read sg hreg attr hp std value v t (hm v (by simp)) hf).1
      have := ih t last s (fun x hx => hm x (by simp [hx])) h
      rw [← this]
      congr 3
      simp only [List.cons_append, List.filterMap_cons, hr]
      cases h1 : (parseAttr sg attr v).2 <;> cases h0 : (parseAttr sg attr value).2 <;> simp [List.getLast?_cons]

/-- **C242**: the order in which the calls are grouped does not matter -/
theorem C242_assoc (sg : SG) (hreg : sg.regular) (attr : SGAttr)
    (hp : attr = .name → ∀ l ∈ sg.valid, sg.noPrefix l) (std : Bool) (a b c ab bc : Str)
    (hb : mergeable sg attr std b) (hc : mergeable sg attr std c)
    (h1 : mergeAttr sg attr (some a) (some b) .keep std = .ok (some ab))
    (h2 : mergeAttr sg attr (some b) (some c) .keep std = .ok (some bc)) :
    mergeAttr sg attr (some ab) (some c) .keep std = mergeAttr sg attr (some a) (some bc) .keep std := by
  have r1 := merge_read sg hreg attr hp std a b ab hb h1
  have r2 := merge_read sg hreg attr hp std b c bc hc h2
  rw [merge_written, merge_written, r1.1, r2.1]
  have e : ((parseAttr sg attr c).2 <|> ((parseAttr sg attr b).2 <|> (parseAttr sg attr a).2)) =
      (((parseAttr sg attr c).2 <|> (parseAttr sg attr b).2) <|> (parseAttr sg attr a).2) := by
    cases (parseAttr sg attr c).2 <;> cases (parseAttr sg attr b).2 <;> rfl
  rw [e]
  congr 1
  cases hl : (((parseAttr sg attr c).2 <|> (parseAttr sg attr b).2) <|> (parseAttr sg attr a).2) with
  | none =>
    show Except.ok (outRoot sg attr c std) = Except.ok (outRoot sg attr bc std)
    rw [r2.2]
  | some l =>
    show formatAttr sg attr c (.str l) std = formatAttr sg attr bc (.str l) std
    have hl' : l ≠ [] := by
      have : (parseAttr sg attr c).2 = some l ∨ (parseAttr sg attr b).2 = some l ∨ (parseAttr sg attr a).2 = some l := by
        cases hc' : (parseAttr sg attr c).2 <;> cases hb' : (parseAttr sg attr b).2 <;> simp [hc', hb'] at hl <;> simp [hl]
      rcases this with h | h | h <;> exact (parsed_loc_good sg hreg attr hp _ l h).1.1
    by_cases hv : sg.valid = [] ∨ lower l ∈ sg.valid
    · rw [formatAttr_str_ok sg attr c l std hl' hv, formatAttr_str_ok sg attr bc l std hl' hv, r2.2]
    · have hno : sg.valid ≠ [] ∧ lower l ∉ sg.valid := ⟨fun h => hv (Or.inl h), fun h => hv (Or.inr h)⟩
      unfold formatAttr
      simp only [hl', if_false, if_pos hno]

/-- the hypotheses are met: the last location is not that of the last text -/
example : mergeNames {} .standardName true "temp_at_t_location".toList
      ["Temp_at_u_location".toList, "Sea_water".toList] = .ok (some "sea_water_at_u_location".toList) ∧
    mergeable {} .standardName true "Temp_at_u_location".toList ∧ mergeable {} .standardName true "Sea_water".toList ∧
    (parseAttr {} .standardName "Sea_water".toList).2 = none := by
  refine ⟨by decide +kernel, ⟨⟨by decide, by decide⟩, ?_⟩, ⟨⟨by decide, by decide⟩, ?_⟩, by decide +kernel⟩
  · intro _ _; decide
  · intro _ _; decide

/-- **C242** does not extend to names with blanks: in the standard form of `sea TEMP`, a location
is read that the next merge keeps, although no text carries one. -/
theorem C242_blank_violated :
    (parseAttr {} .name "sea TEMP".toList).2 = none ∧ (parseAttr {} .name "salt".toList).2 = none ∧
    mergeNames {} .name true "salt".toList ["sea TEMP".toList, "salt".toList] = .ok (some "salt_temp".toList) := by
  decide +kernel

end Xoa
