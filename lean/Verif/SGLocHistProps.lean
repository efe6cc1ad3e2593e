import Verif.SGLocFormatProps

/-! # Relocating a name several times (C241) -/

namespace Xoa

/-- several calls of `SGLocator.format_attr` (xoa/cf.py:274-339), each on the text written by
the previous one, with the locations of the list -/
def relocateAll (sg : SG) (attr : SGAttr) (std : Bool) (value : Str) (locs : List Str) : Except SGErr Str :=
  locs.foldlM (fun v loc => formatAttr sg attr v (.str loc) std) value

/-- the root read in the text written for a location is the root written -/
theorem relocate_root (sg : SG) (hreg : sg.regular) (attr : SGAttr) (value loc s : Str) (std : Bool)
    (hr : isRoot attr (outRoot sg attr value std)) (hl : isLoc loc) (hp : attr = .name → sg.noPrefix loc)
    (h : formatAttr sg attr value (.str loc) std = .ok s) :
    parseAttr sg attr s = (outRoot sg attr value std, some (lower loc)) ∧
      outRoot sg attr s std = outRoot sg attr value std := by
  obtain ⟨hs, hval⟩ := formatAttr_str sg attr value loc std hl.1 s h
  have hll : lower (outLoc attr loc std) = lower loc := by
    unfold outLoc; split
    · exact lower_stdLoc attr loc
    · rfl
  have hpar : parseAttr sg attr s = (outRoot sg attr value std, some (lower loc)) := by
    rw [hs, C38_round_trip sg hreg attr _ _ hr]
    · rw [hll]
    · unfold outLoc; split
      · exact stdLoc_isLoc attr loc hl
      · exact hl
    · rcases hval with h | h
      · exact Or.inl h
      · exact Or.inr ⟨lower loc, h, by rw [lower_lower, hll]⟩
    · intro ha; exact noPrefix_congr hll.symm (hp ha)
  refine ⟨hpar, ?_⟩
  unfold outRoot at *
  rw [hpar]
  cases std with
  | true => simp only [if_true]; exact stdRoot_idem attr _
  | false => rfl

/-- after any number of relocations, the root is still that of the first text -/
theorem relocateAll_root (sg : SG) (hreg : sg.regular) (attr : SGAttr) (std : Bool) (locs : List Str) :
    ∀ (value s : Str), isRoot attr (outRoot sg attr value std) →
    (∀ l ∈ locs, isLoc l ∧ (attr = .name → sg.noPrefix l)) →
    relocateAll sg attr std value locs = .ok s →
    outRoot sg attr s std = outRoot sg attr value std := by
  induction locs with
  | nil =>
    intro value s _ _ h
    have h : value = s := by simpa [relocateAll, pure, Except.pure] using h
    rw [h]
  | cons loc locs ih =>
    intro value s hr hl h
    unfold relocateAll at h
    rw [List.foldlM_cons] at h
    cases h1 : formatAttr sg attr value (.str loc) std with
    | error e => rw [h1] at h; exact absurd h (by simp [bind, Except.bind])
    | ok v =>
      rw [h1] at h
      have hloc := hl loc (by simp)
      have hv := (relocate_root sg hreg attr value loc v std hr hloc.1 hloc.2 h1).2
      rw [← hv]
      exact ih v s (by rw [hv]; exact hr) (fun l hm => hl l (by simp [hm])) h

/-- **C241**: the last location wins. Whatever the number of relocations, the text written is the
one of a single call with the last location on the first text. -/
theorem C241_last_wins (sg : SG) (hreg : sg.regular) (attr : SGAttr) (std : Bool) (value : Str)
    (hv : if std then isText value else isRoot attr value) (locs : List Str) (last s : Str)
    (hl : ∀ l ∈ locs ++ [last], isLoc l ∧ (attr = .name → sg.noPrefix l))
    (h : relocateAll sg attr std value (locs ++ [last]) = .ok s) :
    formatAttr sg attr value (.str last) std = .ok s := by
  unfold relocateAll at h
  rw [List.foldlM_append] at h
  cases h1 : locs.foldlM (fun v loc => formatAttr sg attr v (.str loc) std) value with
  | error e => rw [h1] at h; exact absurd h (by simp [bind, Except.bind])
  | ok v =>
    rw [h1] at h
    have h2 : formatAttr sg attr v (.str last) std = .ok s := by
      cases hf : formatAttr sg attr v (.str last) std with
      | error e => simp [bind, Except.bind, hf] at h
      | ok w => simpa [bind, Except.bind, hf, pure, Except.pure] using h
    have hlast := hl last (by simp)
    have hroot := relocateAll_root sg hreg attr std locs value v (outRoot_isRoot sg attr value std hv)
      (fun l hm => hl l (by simp [hm])) h1
    obtain ⟨hs, hval⟩ := formatAttr_str sg attr v last std hlast.1.1 s h2
    rw [formatAttr_str_ok sg attr value last std hlast.1.1 hval, hs, hroot]

/-- **C241**: every history of relocations succeeds when its locations are valid, and stops with
the error of its first invalid location otherwise -/
theorem C241_succeeds (sg : SG) (attr : SGAttr) (std : Bool) (locs : List Str) :
    ∀ (value : Str), (∀ l ∈ locs, l ≠ []) →
    ((∃ s, relocateAll sg attr std value locs = .ok s) ↔ ∀ l ∈ locs, sg.valid = [] ∨ lower l ∈ sg.valid) := by
  induction locs with
  | nil => intro value _; simp [relocateAll, pure, Except.pure]
  | cons loc locs ih =>
    intro value hne
    unfold relocateAll
    rw [List.foldlM_cons]
    by_cases hval : sg.valid = [] ∨ lower loc ∈ sg.valid
    · rw [formatAttr_str_ok sg attr value loc std (hne loc (by simp)) hval]
      have := ih (fmt (sg.format attr) (outRoot sg attr value std) (outLoc attr loc std)) (fun l hm => hne l (by simp [hm]))
      unfold relocateAll at this
      simp only [bind, Except.bind] at this ⊢
      rw [this]
      simp [hval]
    · constructor
      · rintro ⟨s, hs⟩
        exfalso
        cases hf : formatAttr sg attr value (.str loc) std with
        | error e => simp [bind, Except.bind, hf] at hs
        | ok v => exact hval (formatAttr_str sg attr value loc std (hne loc (by simp)) v hf).2
      · intro h; exact absurd (h loc (by simp)) hval

/-- **C241**: after any number of relocations (at least one), the location read is the last one, and
removing it gives what removing the location of the first text gives. -/
theorem C241_parse_and_remove (sg : SG) (hreg : sg.regular) (attr : SGAttr) (std : Bool) (value : Str)
    (hv : if std then isText value else isRoot attr value) (locs : List Str) (last s : Str)
    (hl : ∀ l ∈ locs ++ [last], isLoc l ∧ (attr = .name → sg.noPrefix l))
    (h : relocateAll sg attr std value (locs ++ [last]) = .ok s) :
    (parseAttr sg attr s).2 = some (lower last) ∧
    formatAttr sg attr s .no std = formatAttr sg attr value .no std := by
  have h1 := C241_last_wins sg hreg attr std value hv locs last s hl h
  have hlast := hl last (by simp)
  have := relocate_root sg hreg attr value last s std (outRoot_isRoot sg attr value std hv) hlast.1 hlast.2 h1
  refine ⟨by rw [this.1], ?_⟩
  show Except.ok (outRoot sg attr s std) = Except.ok (outRoot sg attr value std)
  rw [this.2]

/-- the hypotheses are met, and the history is not trivial -/
example : SG.regular { valid := ["t".toList, "u".toList, "f".toList] } ∧ isText "Sea Temp".toList ∧
    (∀ l ∈ ["T".toList, "f".toList] ++ ["U".toList],
      isLoc l ∧ SG.noPrefix { valid := ["t".toList, "u".toList, "f".toList] } l) ∧
    relocateAll { valid := ["t".toList, "u".toList, "f".toList] } .name true
      "Sea Temp".toList (["T".toList, "f".toList] ++ ["U".toList]) = .ok "Sea_Temp_U".toList ∧
    relocateAll { valid := ["t".toList, "u".toList, "f".toList] } .standardName true
      "Sea Temp".toList (["T".toList, "f".toList] ++ ["U".toList]) = .ok "sea_temp_at_u_location".toList := by
  have dec : ∀ l : Str, isLoc l ↔ (l ≠ [] ∧ ∀ c ∈ l, c.isAlpha = true) := fun l => Iff.rfl
  refine ⟨⟨by decide, by decide, rfl, ?_⟩, ⟨by decide, by decide⟩, ?_, by decide +kernel, by decide +kernel⟩
  · simp only [dec]; decide
  · simp only [dec, SG.noPrefix]; decide

/-- an invalid location stops the history -/
example : (∃ s, relocateAll { valid := ["t".toList] } .name true "temp".toList ["t".toList, "u".toList] = .ok s) → False := by
  rw [C241_succeeds _ _ _ _ _ (by decide)]
  decide

end Xoa
