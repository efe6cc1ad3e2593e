import Verif.SGLocProps
import Verif.MiscFilterProps

/-! # Formatting of located names (C39), valid locations (C40), consistency (C41) -/

namespace Xoa

/-! ## What parsing can return -/

theorem tryLoc_sound (valid : List Str) (post rest l : Str) (h : tryLoc valid post rest = some l) :
    (valid = [] → isLoc l) ∧ (valid ≠ [] → ∃ v ∈ valid, lower v = lower l) := by
  unfold tryLoc at h
  by_cases hv : valid = []
  · rw [if_pos hv] at h
    refine ⟨fun _ => ?_, fun h' => absurd hv h'⟩
    obtain ⟨m, hm, h'⟩ := List.exists_of_findSome?_eq_some h
    rw [mem_desc] at hm
    split at h'
    · simp only [Option.some.injEq] at h'
      subst h'
      have hle := spanLen_le Char.isAlpha rest
      refine ⟨?_, spanLen_take _ _ _ hm.2⟩
      intro e
      have := congrArg List.length e
      rw [List.length_take, List.length_nil] at this
      omega
    · exact absurd h' (by simp)
  · rw [if_neg hv] at h
    refine ⟨fun h' => absurd h' hv, fun _ => ?_⟩
    obtain ⟨v, hm, h'⟩ := List.exists_of_findSome?_eq_some h
    split at h'
    · next hc =>
      simp only [Option.some.injEq] at h'
      subst h'
      rw [Bool.and_eq_true] at hc
      refine ⟨v, hm, ?_⟩
      have := hc.1
      unfold litMatch at this
      rw [beq_iff_eq] at this
      exact this.symm
    · exact absurd h' (by simp)

theorem class_isRoot {attr : SGAttr} {c : Char} (h : rootClass attr c = true) :
    isWord c = true ∨ (attr = .longName ∧ c = ' ') := by
  cases attr with
  | longName =>
    simp only [rootClass, Bool.or_eq_true, decide_eq_true_eq] at h
    rcases h with h | h
    · exact Or.inl h
    · exact Or.inr ⟨rfl, h⟩
  | name => exact Or.inl h
  | standardName => exact Or.inl h

theorem parseRe_sound (sg : SG) (attr : SGAttr) (v root l : Str) (h : parseRe sg attr v = some (root, l)) :
    isRoot attr root ∧ (sg.valid = [] → isLoc l) ∧ (sg.valid ≠ [] → ∃ x ∈ sg.valid, lower x = lower l) := by
  unfold parseRe at h
  simp only at h
  split at h
  · obtain ⟨n, hn, h'⟩ := List.exists_of_findSome?_eq_some h
    rw [mem_desc] at hn
    unfold tryRoot at h'
    split at h'
    · rw [Option.map_eq_some_iff] at h'
      obtain ⟨l', h1, h2⟩ := h'
      simp only [Prod.mk.injEq] at h2
      obtain ⟨h2, rfl⟩ := h2
      refine ⟨?_, tryLoc_sound _ _ _ _ h1⟩
      subst h2
      have hle := spanLen_le (rootClass attr) (v.drop (sg.format attr).pre.length)
      refine ⟨?_, fun c hc => class_isRoot (spanLen_take _ _ _ hn.2 c hc)⟩
      intro e
      have := congrArg List.length e
      rw [List.length_take, List.length_nil] at this
      omega
    · exact absurd h' (by simp)
  · exact absurd h (by simp)

theorem parseAttr_some (sg : SG) (attr : SGAttr) (v : Str) (l : Str) (h : (parseAttr sg attr v).2 = some l) :
    ∃ root l0, parseRe sg attr v = some (root, l0) ∧ l = lower l0 ∧ (parseAttr sg attr v).1 = root := by
  unfold parseAttr at *
  cases hp : parseRe sg attr v with
  | none => rw [hp] at h; exact absurd h (by simp)
  | some p =>
    obtain ⟨r, l0⟩ := p
    rw [hp] at h
    simp only [Option.some.injEq] at h
    exact ⟨r, l0, rfl, h.symm, rfl⟩

theorem parseAttr_none (sg : SG) (attr : SGAttr) (v : Str) (h : (parseAttr sg attr v).2 = none) :
    parseRe sg attr v = none ∧ (parseAttr sg attr v).1 = v := by
  unfold parseAttr at *
  cases hp : parseRe sg attr v with
  | none => exact ⟨rfl, rfl⟩
  | some p => rw [hp] at h; exact absurd h (by simp)

/-- **C40**: with declared locations, parsing never returns another location (the declared
location in lower case); without, it returns letters in lower case. -/
theorem C40_only_valid (sg : SG) (attr : SGAttr) (value : Str) (root l : Str)
    (h : parseAttr sg attr value = (root, some l)) :
    (sg.valid ≠ [] → ∃ v ∈ sg.valid, l = lower v) ∧ (sg.valid = [] → isLoc l ∧ lower l = l) := by
  obtain ⟨r, l0, hp, hl, _⟩ := parseAttr_some sg attr value l (by rw [h])
  obtain ⟨_, h2, h3⟩ := parseRe_sound sg attr value r l0 hp
  refine ⟨fun hv => ?_, fun hv => ?_⟩
  · obtain ⟨v, hm, he⟩ := h3 hv
    exact ⟨v, hm, by rw [hl, he]⟩
  · have := h2 hv
    refine ⟨⟨?_, ?_⟩, by rw [hl, lower_lower]⟩
    · intro e; rw [hl, lower_eq_nil] at e; exact this.1 e
    · intro c hc
      rw [hl] at hc
      unfold lower at hc
      rw [List.mem_map] at hc
      obtain ⟨d, hd, rfl⟩ := hc
      rw [isAlpha_toLower]
      exact this.2 d hd

/-- **C87**, completeness for standard and long names: the location is recognised whatever the
other declared locations; for names, no other declared location may be the beginning of it. -/
theorem C87_recognised_partial (sg : SG) (hreg : sg.regular) (attr : SGAttr) (root loc : Str) (hr : isRoot attr root)
    (hl : isLoc loc) (hm : ∃ l ∈ sg.valid, lower l = lower loc) (hp : attr = .name → sg.noPrefix loc) :
    parseAttr sg attr (fmt (sg.format attr) root loc) = (root, some (lower loc)) :=
  C38_round_trip sg hreg attr root loc hr hl (Or.inr hm) hp

/-- **C87 is violated** for names when a declared location is the beginning of a later one: with
the valid locations `r` and `rho`, the location of `temp_rho` is `r`. -/
theorem C87_prefix_violated :
    parseAttr { valid := ["r".toList, "rho".toList] } .name "temp_rho".toList = ("temp".toList, some "r".toList) := by
  decide +kernel

/-- ... and it is not by the order of declaration that `rho` cannot be recognised -/
example : parseAttr { valid := ["rho".toList, "r".toList] } .name "temp_rho".toList = ("temp".toList, some "rho".toList) := by
  decide +kernel

/-- **C87 is violated**: a name that does not end with a declared location is given one: the
expression is not anchored at the end of the name. -/
theorem C87_trailing_violated :
    parseAttr { valid := ["t".toList] } .name "wind_tau".toList = ("wind".toList, some "t".toList) := by
  decide +kernel

/-! ## The standard forms -/

theorem replaceC_idem (a b : Char) (s : Str) : replaceC a b (replaceC a b s) = replaceC a b s := by
  unfold replaceC
  rw [List.map_map]
  congr 1
  funext c
  simp only [Function.comp]
  by_cases h : c = a
  · simp only [h, if_true]
    by_cases h2 : b = a
    · rw [if_pos h2]
    · rw [if_neg h2]
  · simp [h]

theorem toLower_space_und (c : Char) : (if c = ' ' then '_' else c).toLower = (if c.toLower = ' ' then '_' else c.toLower) := by
  have h : c.toLower = ' ' ↔ c = ' ' := by
    rw [char_eq_iff, char_eq_iff, Char.toLower_toNat]
    have : (' ' : Char).toNat = 32 := by decide
    rw [this]
    split <;> omega
  by_cases hc : c = ' '
  · subst hc; decide
  · rw [if_neg hc, if_neg (fun e => hc (h.mp e))]

theorem lower_replace_su (s : Str) : lower (replaceC ' ' '_' s) = replaceC ' ' '_' (lower s) := by
  unfold lower replaceC
  rw [List.map_map, List.map_map]
  congr 1
  funext c
  exact toLower_space_und c

theorem toLower_und_space (c : Char) : (if c = '_' then ' ' else c).toLower = (if c.toLower = '_' then ' ' else c.toLower) := by
  have h : c.toLower = '_' ↔ c = '_' := by
    rw [char_eq_iff, char_eq_iff, Char.toLower_toNat]
    have : ('_' : Char).toNat = 95 := by decide
    rw [this]
    split <;> omega
  by_cases hc : c = '_'
  · subst hc; decide
  · rw [if_neg hc, if_neg (fun e => hc (h.mp e))]

theorem toUpper_und_space (c : Char) : (if c = '_' then ' ' else c).toUpper = (if c.toUpper = '_' then ' ' else c.toUpper) := by
  have h : c.toUpper = '_' ↔ c = '_' := by
    rw [char_eq_iff, char_eq_iff, Char.toUpper_toNat]
    have : ('_' : Char).toNat = 95 := by decide
    rw [this]
    split <;> omega
  by_cases hc : c = '_'
  · subst hc; decide
  · rw [if_neg hc, if_neg (fun e => hc (h.mp e))]

theorem lower_replace_us (s : Str) : lower (replaceC '_' ' ' s) = replaceC '_' ' ' (lower s) := by
  unfold lower replaceC
  rw [List.map_map, List.map_map]
  congr 1
  funext c
  exact toLower_und_space c

theorem capitalize_replace (s : Str) : capitalize (replaceC '_' ' ' s) = replaceC '_' ' ' (capitalize s) := by
  cases s with
  | nil => rfl
  | cons c s =>
    have := lower_replace_us s
    unfold replaceC at *
    simp only [capitalize, List.map_cons, this, toUpper_und_space]

theorem capitalize_idem (s : Str) : capitalize (capitalize s) = capitalize s := by
  cases s with
  | nil => rfl
  | cons c s => simp [capitalize, toUpper_toUpper]

theorem lower_capitalize (s : Str) : lower (capitalize s) = lower s := by
  cases s with
  | nil => rfl
  | cons c s =>
    have := lower_lower s
    unfold lower at *
    simp only [capitalize, List.map_cons, toLower_toUpper]
    unfold lower
    rw [this]

theorem stdRoot_idem (attr : SGAttr) (s : Str) : stdRoot attr (stdRoot attr s) = stdRoot attr s := by
  cases attr with
  | name => exact replaceC_idem _ _ s
  | standardName =>
    simp only [stdRoot]
    rw [← lower_replace_su, replaceC_idem, lower_lower]
  | longName =>
    simp only [stdRoot]
    rw [capitalize_replace, replaceC_idem, capitalize_idem]

theorem stdLoc_idem (attr : SGAttr) (s : Str) : stdLoc attr (lower (stdLoc attr s)) = stdLoc attr (lower s) := by
  cases attr with
  | name => rfl
  | standardName => simp [stdLoc]
  | longName => simp only [stdLoc]; rw [upper_lower, upper_lower]; unfold upper; rw [List.map_map]; congr 1; funext c; exact toUpper_toUpper c

theorem stdLoc_isLoc (attr : SGAttr) (s : Str) (h : isLoc s) : isLoc (stdLoc attr s) := by
  have hu : isLoc (upper s) := by
    refine ⟨by simpa [upper] using h.1, ?_⟩
    intro c hc
    unfold upper at hc
    rw [List.mem_map] at hc
    obtain ⟨d, hd, rfl⟩ := hc
    rw [isAlpha_toUpper]; exact h.2 d hd
  have hl : isLoc (lower s) := by
    refine ⟨by simpa [lower] using h.1, ?_⟩
    intro c hc
    unfold lower at hc
    rw [List.mem_map] at hc
    obtain ⟨d, hd, rfl⟩ := hc
    rw [isAlpha_toLower]; exact h.2 d hd
  cases attr with
  | name => exact h
  | standardName => exact hl
  | longName => exact hu

theorem lower_stdLoc (attr : SGAttr) (s : Str) : lower (stdLoc attr s) = lower s := by
  cases attr with
  | name => rfl
  | standardName => exact lower_lower s
  | longName => exact lower_upper s

/-- a value made of word characters and blanks -/
def isText (s : Str) : Prop := s ≠ [] ∧ ∀ c ∈ s, isWord c = true ∨ c = ' '

theorem isRoot_isText {attr : SGAttr} {s : Str} (h : isRoot attr s) : isText s := by
  refine ⟨h.1, fun c hc => ?_⟩
  rcases h.2 c hc with h | h
  · exact Or.inl h
  · exact Or.inr h.2

theorem stdRoot_isRoot (attr : SGAttr) (s : Str) (h : isText s) : isRoot attr (stdRoot attr s) := by
  have hrep : ∀ c ∈ replaceC ' ' '_' s, isWord c = true := by
    intro c hc
    unfold replaceC at hc
    rw [List.mem_map] at hc
    obtain ⟨d, hd, rfl⟩ := hc
    rcases h.2 d hd with h1 | h1
    · split
      · decide
      · exact h1
    · rw [if_pos h1]; decide
  cases attr with
  | name =>
    refine ⟨by simpa [stdRoot, replaceC] using h.1, fun c hc => Or.inl (hrep c hc)⟩
  | standardName =>
    refine ⟨by simpa [stdRoot, replaceC, lower] using h.1, fun c hc => Or.inl ?_⟩
    simp only [stdRoot] at hc
    unfold lower at hc
    rw [List.mem_map] at hc
    obtain ⟨d, hd, rfl⟩ := hc
    rw [isWord_toLower]
    exact hrep d hd
  | longName =>
    have hcap : ∀ c ∈ capitalize s, isWord c = true ∨ c = ' ' := by
      have hl : ∀ d : Char, d = ' ' → d.toLower = ' ' ∧ d.toUpper = ' ' := by rintro d rfl; decide
      cases s with
      | nil => exact absurd rfl h.1
      | cons x t =>
        intro c hc
        simp only [capitalize, List.mem_cons] at hc
        rcases hc with rfl | hc
        · rcases h.2 x (by simp) with h1 | h1
          · left; rw [isWord_toUpper]; exact h1
          · right; exact (hl x h1).2
        · unfold lower at hc
          rw [List.mem_map] at hc
          obtain ⟨d, hd, rfl⟩ := hc
          rcases h.2 d (by simp [hd]) with h1 | h1
          · left; rw [isWord_toLower]; exact h1
          · right; exact (hl d h1).1
    refine ⟨?_, fun c hc => ?_⟩
    · cases s with
      | nil => exact absurd rfl h.1
      | cons x t => simp [stdRoot, capitalize, replaceC]
    · simp only [stdRoot] at hc
      unfold replaceC at hc
      rw [List.mem_map] at hc
      obtain ⟨d, hd, rfl⟩ := hc
      split
      · exact Or.inr ⟨rfl, rfl⟩
      · rcases hcap d hd with h1 | h1
        · exact Or.inl h1
        · exact Or.inr ⟨rfl, h1⟩

/-- the root read in a text is a text -/
theorem parse_root_text (sg : SG) (attr : SGAttr) (v : Str) (h : isText v) : isText (parseAttr sg attr v).1 := by
  cases hp : (parseAttr sg attr v).2 with
  | none => rw [(parseAttr_none sg attr v hp).2]; exact h
  | some l =>
    obtain ⟨r, l0, h1, _, h2⟩ := parseAttr_some sg attr v l hp
    rw [h2]
    exact isRoot_isText (parseRe_sound sg attr v r l0 h1).1

/-- the root written by `format_attr` -/
def outRoot (sg : SG) (attr : SGAttr) (value : Str) (standardize : Bool) : Str :=
  if standardize then stdRoot attr (parseAttr sg attr value).1 else (parseAttr sg attr value).1

/-- the location written by `format_attr` -/
def outLoc (attr : SGAttr) (loc : Str) (standardize : Bool) : Str := if standardize then stdLoc attr loc else loc

theorem outRoot_isRoot (sg : SG) (attr : SGAttr) (value : Str) (standardize : Bool)
    (hv : if standardize then isText value else isRoot attr value) : isRoot attr (outRoot sg attr value standardize) := by
  unfold outRoot
  cases standardize with
  | true =>
    simp only [if_true] at *
    exact stdRoot_isRoot attr _ (parse_root_text sg attr value hv)
  | false =>
    simp only [Bool.false_eq_true, if_false] at *
    cases hp : (parseAttr sg attr value).2 with
    | none => rw [(parseAttr_none sg attr value hp).2]; exact hv
    | some l =>
      obtain ⟨r, l0, h1, _, h2⟩ := parseAttr_some sg attr value l hp
      rw [h2]
      exact (parseRe_sound sg attr value r l0 h1).1

/-- the value of `format_attr` for a given location -/
theorem formatAttr_str (sg : SG) (attr : SGAttr) (value loc : Str) (std : Bool) (hl : loc ≠ []) (s : Str)
    (h : formatAttr sg attr value (.str loc) std = .ok s) :
    s = fmt (sg.format attr) (outRoot sg attr value std) (outLoc attr loc std) ∧ (sg.valid = [] ∨ lower loc ∈ sg.valid) := by
  unfold formatAttr at h
  simp only [hl, if_false] at h
  split at h
  · exact absurd h (by simp)
  · next hc =>
    simp only [Except.ok.injEq] at h
    refine ⟨?_, ?_⟩
    · rw [← h]; rfl
    · by_cases e : sg.valid = []
      · exact Or.inl e
      · right
        by_contra hcon
        exact hc ⟨e, hcon⟩

theorem formatAttr_str_ok (sg : SG) (attr : SGAttr) (value loc : Str) (std : Bool) (hl : loc ≠ [])
    (hv : sg.valid = [] ∨ lower loc ∈ sg.valid) :
    formatAttr sg attr value (.str loc) std = .ok (fmt (sg.format attr) (outRoot sg attr value std) (outLoc attr loc std)) := by
  unfold formatAttr
  simp only [hl, if_false]
  rw [if_neg]
  · rfl
  · rintro ⟨h1, h2⟩
    rcases hv with h | h
    · exact h1 h
    · exact h2 h

theorem noPrefix_congr {sg : SG} {a b : Str} (h : lower a = lower b) (hp : sg.noPrefix a) : sg.noPrefix b := by
  intro l hl hpre
  rw [← h] at hpre ⊢
  exact hp l hl hpre

/-- **C38** at the level of the formatting method: the text written for a location contains the
(standard form of the) root of the given text and the given location. -/
theorem C38_format_parse (sg : SG) (hreg : sg.regular) (attr : SGAttr) (value loc s : Str) (std : Bool)
    (hv : if std then isText value else isRoot attr value) (hl : isLoc loc) (hp : attr = .name → sg.noPrefix loc)
    (h : formatAttr sg attr value (.str loc) std = .ok s) :
    parseAttr sg attr s =
      (if std then stdRoot attr (parseAttr sg attr value).1 else (parseAttr sg attr value).1, some (lower loc)) := by
  obtain ⟨rfl, hval⟩ := formatAttr_str sg attr value loc std hl.1 s h
  have hll : lower (outLoc attr loc std) = lower loc := by
    unfold outLoc; split
    · exact lower_stdLoc attr loc
    · rfl
  rw [C38_round_trip sg hreg attr _ _ (outRoot_isRoot sg attr value std hv)]
  · rw [hll]; rfl
  · unfold outLoc; split
    · exact stdLoc_isLoc attr loc hl
    · exact hl
  · rcases hval with h | h
    · exact Or.inl h
    · exact Or.inr ⟨lower loc, h, by rw [lower_lower, hll]⟩
  · intro ha; exact noPrefix_congr hll.symm (hp ha)

example : isText "sea water TEMP".toList ∧ isLoc "T".toList ∧
    formatAttr { valid := ["t".toList, "u".toList] } .longName "sea water TEMP".toList (.str "T".toList) =
      .ok "Sea water temp at T location".toList := by
  refine ⟨⟨by decide, by decide⟩, ⟨by decide, by decide⟩, by decide +kernel⟩

/-- **C39** for a given location: formatting twice is formatting once. -/
theorem C39_set_location_partial (sg : SG) (hreg : sg.regular) (attr : SGAttr) (value loc s : Str) (std : Bool)
    (hv : if std then isText value else isRoot attr value) (hl : isLoc loc) (hp : attr = .name → sg.noPrefix loc)
    (h : formatAttr sg attr value (.str loc) std = .ok s) : formatAttr sg attr s (.str loc) std = .ok s := by
  have hpar := C38_format_parse sg hreg attr value loc s std hv hl hp h
  obtain ⟨hs, hval⟩ := formatAttr_str sg attr value loc std hl.1 s h
  rw [formatAttr_str_ok sg attr s loc std hl.1 hval]
  have : outRoot sg attr s std = outRoot sg attr value std := by
    unfold outRoot
    rw [hpar]
    cases std with
    | true => simp only [if_true]; exact stdRoot_idem attr _
    | false => rfl
  rw [this, ← hs]

/-- **C39** does not extend to values with other characters: formatting `sea-temp` at `t` twice
gives two locations. -/
theorem C39_set_location_violated :
    (do let s ← formatAttr {} .name "sea-temp".toList (.str "t".toList)
        formatAttr {} .name s (.str "t".toList)) = .ok "sea-temp_t_t".toList := by
  decide +kernel

/-! ### keeping the location -/

theorem spanLen_lower (p : Char → Bool) (hp : ∀ c : Char, p c.toLower = p c) (s : Str) : spanLen p (lower s) = spanLen p s := by
  unfold spanLen lower
  induction s with
  | nil => rfl
  | cons c s ih =>
    simp only [List.map_cons, List.takeWhile_cons, hp]
    split
    · simp only [List.length_cons]; rw [ih]
    · rfl

theorem rootClass_toLower (attr : SGAttr) (c : Char) : rootClass attr c.toLower = rootClass attr c := by
  have hs : (decide (c.toLower = ' ')) = decide (c = ' ') := by
    rw [Bool.eq_iff_iff, decide_eq_true_eq, decide_eq_true_eq, char_eq_iff, char_eq_iff, Char.toLower_toNat]
    have : (' ' : Char).toNat = 32 := by decide
    rw [this]
    split <;> omega
  cases attr <;> simp only [rootClass, isWord_toLower, hs]

theorem lower_drop (s : Str) (n : Nat) : (lower s).drop n = lower (s.drop n) := by simp [lower]
theorem lower_take (s : Str) (n : Nat) : (lower s).take n = lower (s.take n) := by simp [lower]

theorem findSome?_map_congr {α β γ : Type} (g : β → γ) (f : α → Option β) (f' : α → Option γ) (l : List α)
    (h : ∀ a, f' a = (f a).map g) : l.findSome? f' = (l.findSome? f).map g := by
  induction l with
  | nil => rfl
  | cons a l ih =>
    rw [List.findSome?_cons, List.findSome?_cons, h a]
    cases f a with
    | none => exact ih
    | some b => rfl

theorem tryLoc_lower (valid : List Str) (post s : Str) : tryLoc valid post (lower s) = (tryLoc valid post s).map lower := by
  unfold tryLoc
  split
  · rw [spanLen_lower _ isAlpha_toLower]
    apply findSome?_map_congr
    intro m
    rw [lower_drop, litMatch_lower, lower_take]
    split <;> rfl
  · apply findSome?_map_congr
    intro l
    rw [lower_drop, litMatch_lower, litMatch_lower, lower_take]
    split <;> rfl

/-- parsing ignores the case -/
theorem parseRe_lower (sg : SG) (attr : SGAttr) (s : Str) :
    parseRe sg attr (lower s) = (parseRe sg attr s).map (fun p => (lower p.1, lower p.2)) := by
  unfold parseRe
  simp only [litMatch_lower, lower_drop]
  split
  · rw [spanLen_lower _ (rootClass_toLower attr)]
    apply findSome?_map_congr
    intro n
    unfold tryRoot
    rw [lower_drop, lower_drop, litMatch_lower, tryLoc_lower, lower_take]
    split
    · rw [Option.map_map, Option.map_map]; rfl
    · rfl
  · rfl

theorem parseRe_none_congr (sg : SG) (attr : SGAttr) (s t : Str) (h : lower s = lower t) (hn : parseRe sg attr s = none) :
    parseRe sg attr t = none := by
  have h1 := parseRe_lower sg attr s
  have h2 := parseRe_lower sg attr t
  rw [← h, h1, hn] at h2
  cases hp : parseRe sg attr t with
  | none => rfl
  | some p => rw [hp] at h2; exact absurd h2 (by simp)

theorem formatAttr_keep (sg : SG) (attr : SGAttr) (value : Str) (std : Bool) :
    formatAttr sg attr value .keep std = .ok (match (parseAttr sg attr value).2 with
      | none => outRoot sg attr value std
      | some l => if l = [] then outRoot sg attr value std
        else fmt (sg.format attr) (outRoot sg attr value std) (outLoc attr l std)) := by
  rfl

/-- **C39** when the location is kept (`loc=None`): formatting twice is formatting once, for the
texts whose blanks and underscores are those of their attribute. -/
theorem C39_keep_location_partial (sg : SG) (hreg : sg.regular) (attr : SGAttr) (value s : Str) (std : Bool)
    (hp : attr = .name → ∀ l ∈ sg.valid, sg.noPrefix l)
    (hc : (parseAttr sg attr value).2 = none → std = true →
      if attr = .longName then '_' ∉ value else ' ' ∉ value)
    (h : formatAttr sg attr value .keep std = .ok s) : formatAttr sg attr s .keep std = .ok s := by
  rw [formatAttr_keep] at h
  cases hpv : (parseAttr sg attr value).2 with
  | none =>
    simp only [hpv, Except.ok.injEq] at h
    obtain ⟨hre, hroot⟩ := parseAttr_none sg attr value hpv
    have hrep : ∀ (a b : Char) (t : Str), a ∉ t → replaceC a b t = t := by
      intro a b t ht
      unfold replaceC
      conv => rhs; rw [← List.map_id t]
      apply List.map_congr_left
      intro c hcm
      rw [if_neg (fun e : c = a => ht (e ▸ hcm))]; rfl
    have hlow : lower s = lower value := by
      rw [← h]
      unfold outRoot
      rw [hroot]
      cases std with
      | false => rfl
      | true =>
        have hc' := hc hpv rfl
        simp only [if_true]
        cases attr with
        | name => simp at hc'; rw [stdRoot, hrep _ _ _ hc']
        | standardName => simp at hc'; rw [stdRoot, hrep _ _ _ hc', lower_lower]
        | longName =>
          simp at hc'
          rw [stdRoot, ← capitalize_replace, hrep _ _ _ hc', lower_capitalize]
    have hre' := parseRe_none_congr sg attr value s hlow.symm hre
    have hps : parseAttr sg attr s = (s, none) := by unfold parseAttr; rw [hre']
    rw [formatAttr_keep, hps]
    simp only [Except.ok.injEq]
    rw [← h]
    unfold outRoot
    cases std with
    | false =>
      simp only [Bool.false_eq_true, if_false]
      rw [hroot]
      unfold outRoot at h
      simp only [Bool.false_eq_true, if_false, hroot] at h
      rw [h, hps]
    | true =>
      simp only [if_true]
      unfold outRoot at h
      simp only [if_true] at h
      rw [h, hps]
      show stdRoot attr s = s
      rw [← h, stdRoot_idem]
  | some l =>
    obtain ⟨r, l0, hre, hl, hr⟩ := parseAttr_some sg attr value l hpv
    obtain ⟨h1, h2, h3⟩ := parseRe_sound sg attr value r l0 hre
    have hl0 : isLoc l0 := by
      by_cases hv : sg.valid = []
      · exact h2 hv
      · obtain ⟨x, hx, he⟩ := h3 hv
        have := hreg.valid x hx
        refine ⟨fun e => this.1 ?_, fun c hcm => ?_⟩
        · rw [e] at he; exact (lower_eq_nil x).mp he
        · have hm : c.toLower ∈ lower x := by rw [he]; exact List.mem_map_of_mem hcm
          unfold lower at hm
          rw [List.mem_map] at hm
          obtain ⟨d, hd, hde⟩ := hm
          rw [← isAlpha_toLower, ← hde, isAlpha_toLower]
          exact this.2 d hd
    have hll : isLoc l := by rw [hl]; exact stdLoc_isLoc .standardName l0 hl0
    simp only [hpv, hll.1, if_false, Except.ok.injEq] at h
    have hlow : lower (outLoc attr l std) = l := by
      unfold outLoc
      split
      · rw [lower_stdLoc, hl, lower_lower]
      · rw [hl, lower_lower]
    have hroot : isRoot attr (outRoot sg attr value std) := by
      unfold outRoot
      rw [hr]
      cases std with
      | true => exact stdRoot_isRoot attr r (isRoot_isText h1)
      | false => exact h1
    have hps : parseAttr sg attr s = (outRoot sg attr value std, some l) := by
      rw [← h, C38_round_trip sg hreg attr _ _ hroot]
      · rw [hlow]
      · unfold outLoc; split
        · exact stdLoc_isLoc attr l hll
        · exact hll
      · by_cases hv : sg.valid = []
        · exact Or.inl hv
        · obtain ⟨x, hx, he⟩ := h3 hv
          exact Or.inr ⟨x, hx, by rw [hlow, he, hl]⟩
      · intro ha
        by_cases hv : sg.valid = []
        · intro y hy; rw [hv] at hy; simp at hy
        · obtain ⟨x, hx, he⟩ := h3 hv
          exact noPrefix_congr (by rw [hlow, he, hl]) (hp ha x hx)
    rw [formatAttr_keep, hps]
    simp only [hll.1, if_false, Except.ok.injEq]
    have : outRoot sg attr s std = outRoot sg attr value std := by
      unfold outRoot at *
      rw [hps]
      cases std with
      | true => simp only [if_true]; exact stdRoot_idem attr _
      | false => rfl
    rw [this, h]

example : formatAttr {} .standardName "Sea_Temp_at_T_location".toList .keep = .ok "sea_temp_at_t_location".toList ∧
    (parseAttr {} .standardName "Sea_Temp_at_T_location".toList).2 ≠ none := by decide +kernel

/-- **C39 is violated** when blanks are standardised: `sea TEMP` becomes `sea_TEMP`, which is then
read as a name at the location `temp`. -/
theorem C39_keep_location_violated :
    formatAttr {} .name "sea TEMP".toList .keep = .ok "sea_TEMP".toList ∧
    formatAttr {} .name "sea_TEMP".toList .keep = .ok "sea_temp".toList := by decide +kernel

/-- **C39**: keeping the location does not keep the name: the text after the location is lost
(`wind_u10` becomes `wind_u`). -/
theorem C39_keep_truncates_violated :
    formatAttr {} .name "wind_u10".toList .keep false = .ok "wind_u".toList := by decide +kernel

/-- **C39** when the location is removed (`loc=False`): formatting twice is formatting once if the
root that remains has no location of its own. -/
theorem C39_remove_location_partial (sg : SG) (attr : SGAttr) (value s : Str) (std : Bool)
    (h : formatAttr sg attr value .no std = .ok s) (hn : (parseAttr sg attr s).2 = none) :
    formatAttr sg attr s .no std = .ok s := by
  have e : ∀ v, formatAttr sg attr v .no std = .ok (outRoot sg attr v std) := fun v => rfl
  rw [e] at h ⊢
  simp only [Except.ok.injEq] at *
  have hs := (parseAttr_none sg attr s hn).2
  unfold outRoot at *
  rw [hs]
  cases std with
  | true => simp only [if_true] at *; rw [← h, stdRoot_idem]
  | false => rfl

/-- **C39 is violated** when the location is removed: each call removes one more word of the name. -/
theorem C39_remove_location_violated :
    formatAttr {} .name "sea_temp_t".toList .no = .ok "sea_temp".toList ∧
    formatAttr {} .name "sea_temp".toList .no = .ok "sea".toList := by decide +kernel

/-- **C39**: the documented argument `loc=True` raises an unexpected error whenever valid locations
are declared. -/
theorem C39_true_violated (sg : SG) (attr : SGAttr) (value : Str) (std : Bool) (h : sg.valid ≠ []) :
    formatAttr sg attr value .true_ std = .error .attributeError := by
  unfold formatAttr
  simp only [ne_eq, h, not_false_eq_true, if_true]

/-! ## C41 -/

/-- the locations carried by the name, the standard name and the long name -/
def carried (sg : SG) (da : DaAttrs) : List Str :=
  (da.name.bind (fun v => (parseAttr sg .name v).2)).toList ++
  (da.standardName.bind (fun v => (parseAttr sg .standardName v).2)).toList ++
  (da.longName.bind (fun v => (parseAttr sg .longName v).2)).toList

theorem parsed_nonempty (sg : SG) (hv : [] ∉ sg.valid) (attr : SGAttr) (v l : Str) (h : (parseAttr sg attr v).2 = some l) :
    l ≠ [] := by
  obtain ⟨r, l0, hre, hl, _⟩ := parseAttr_some sg attr v l h
  obtain ⟨_, h2, h3⟩ := parseRe_sound sg attr v r l0 hre
  rw [hl]
  intro e
  rw [lower_eq_nil] at e
  by_cases hv0 : sg.valid = []
  · exact (h2 hv0).1 e
  · obtain ⟨x, hx, he⟩ := h3 hv0
    rw [e] at he
    have : x = [] := (lower_eq_nil x).mp he
    exact hv (this ▸ hx)

/-- `loc` sums up the list `acc` -/
def sumsUp (acc : List Str) : Option (Option Str) → Prop
  | none => ∃ y ∈ acc, ∃ z ∈ acc, y ≠ z
  | some none => acc = []
  | some (some l) => l ≠ [] ∧ acc ≠ [] ∧ ∀ y ∈ acc, y = l

theorem nextLoc_spec (loc : Option Str) (acc : List Str) (x : Option Str) (hx : ∀ l, x = some l → l ≠ [])
    (h : sumsUp acc (some loc)) : sumsUp (acc ++ x.toList) (nextLoc loc x) := by
  unfold nextLoc
  cases x with
  | none =>
    simp only [truthyLoc, Bool.false_eq_true, if_false, Option.toList_none, List.append_nil]
    cases loc with
    | none => exact h
    | some l => exact h
  | some xl =>
    have hxl := hx xl rfl
    have ht : truthyLoc (some xl) = true := by simp [truthyLoc, hxl]
    simp only [ht, if_true, Option.toList_some]
    cases loc with
    | none =>
      have h' : acc = [] := h
      subst h'
      simp [truthyLoc, hxl, sumsUp]
    | some l =>
      obtain ⟨h1, h2, h3⟩ := h
      have ht2 : truthyLoc (some l) = true := by simp [truthyLoc, h1]
      by_cases he : xl = l
      · subst he
        simp only [ht2, bne_self_eq_false, Bool.and_false, Bool.false_eq_true, if_false]
        refine ⟨h1, by simp, ?_⟩
        intro y hy
        simp only [List.mem_append, List.mem_singleton] at hy
        rcases hy with hy | hy
        · exact h3 y hy
        · exact hy
      · have hne : (some xl != some l) = true := by simp [he]
        simp only [ht2, hne, Bool.and_self, if_true]
        obtain ⟨y, hy⟩ := List.exists_mem_of_ne_nil acc h2
        refine ⟨y, by simp [hy], xl, by simp, ?_⟩
        rw [h3 y hy]
        exact fun e => he e.symm

/-- **C41**: an array has a location exactly when the attributes that carry one agree on it; two
different locations are an error; no location means that none is carried. -/
theorem C41_get_location (sg : SG) (hv : [] ∉ sg.valid) (da : DaAttrs) :
    (getLocation sg da = none ↔ ∃ a ∈ carried sg da, ∃ b ∈ carried sg da, a ≠ b) ∧
    (∀ l, getLocation sg da = some (some l) ↔ carried sg da ≠ [] ∧ ∀ a ∈ carried sg da, a = l) ∧
    (getLocation sg da = some none ↔ carried sg da = []) := by
  -- one direction for the three outcomes is enough, since they exclude each other
  have key : sumsUp (carried sg da) (getLocation sg da) := by
    have hempty : (parseAttr sg .name []).2 = none := by
      cases hp : (parseAttr sg .name []).2 with
      | none => rfl
      | some l =>
        exfalso
        obtain ⟨r, l0, hre, _⟩ := parseAttr_some sg .name [] l hp
        unfold parseRe at hre
        simp only [List.drop_nil] at hre
        have : spanLen (rootClass .name) [] = 0 := rfl
        rw [this] at hre
        split at hre <;> exact absurd hre (by simp [desc])
    have hne : ∀ (attr : SGAttr) (o : Option Str) (l : Str), locOf sg attr o = some l → l ≠ [] := by
      intro attr o l h
      cases o with
      | none => exact absurd h (by simp [locOf])
      | some v => exact parsed_nonempty sg hv attr v l h
    have hn : (if da.name = some [] then none else locOf sg .name da.name) = locOf sg .name da.name := by
      split
      · next h => rw [h]; exact hempty.symm
      · rfl
    have s1 : sumsUp (locOf sg .name da.name).toList (some (locOf sg .name da.name)) := by
      cases h : locOf sg .name da.name with
      | none => rfl
      | some l => exact ⟨hne _ _ l h, by simp, by simp⟩
    have s2 := nextLoc_spec _ _ _ (hne .standardName da.standardName) s1
    show sumsUp ((locOf sg .name da.name).toList ++ (locOf sg .standardName da.standardName).toList ++
      (locOf sg .longName da.longName).toList) (getLocation sg da)
    unfold getLocation
    simp only [hn]
    cases hc2 : nextLoc (locOf sg .name da.name) (locOf sg .standardName da.standardName) with
    | none =>
      rw [hc2] at s2
      obtain ⟨y, hy, z, hz, hyz⟩ := s2
      exact ⟨y, List.mem_append_left _ hy, z, List.mem_append_left _ hz, hyz⟩
    | some loc =>
      rw [hc2] at s2
      exact nextLoc_spec _ _ _ (hne _ _) s2
  cases hg : getLocation sg da with
  | none =>
    rw [hg] at key
    obtain ⟨y, hy, z, hz, hyz⟩ := key
    refine ⟨⟨fun _ => ⟨y, hy, z, hz, hyz⟩, fun _ => rfl⟩, fun l => ⟨fun h => absurd h (by simp), ?_⟩, ⟨fun h => absurd h (by simp), ?_⟩⟩
    · rintro ⟨_, h⟩; exact absurd ((h y hy).trans (h z hz).symm) hyz
    · intro h; rw [h] at hy; simp at hy
  | some o =>
    cases o with
    | none =>
      rw [hg] at key
      have key : carried sg da = [] := key
      refine ⟨⟨fun h => absurd h (by simp), ?_⟩, fun l => ⟨fun h => absurd h (by simp), ?_⟩, ⟨fun _ => key, fun _ => rfl⟩⟩
      · rintro ⟨a, ha, _⟩; rw [key] at ha; simp at ha
      · rintro ⟨h, _⟩; exact absurd key h
    | some l' =>
      rw [hg] at key
      obtain ⟨_, h2, h3⟩ := key
      refine ⟨⟨fun h => absurd h (by simp), ?_⟩, fun l => ⟨?_, ?_⟩, ⟨fun h => absurd h (by simp), fun h => absurd h h2⟩⟩
      · rintro ⟨a, ha, b, hb, hab⟩; exact absurd ((h3 a ha).trans (h3 b hb).symm) hab
      · intro h
        simp only [Option.some.injEq] at h
        subst h
        exact ⟨h2, h3⟩
      · rintro ⟨hne, hall⟩
        obtain ⟨y, hy⟩ := List.exists_mem_of_ne_nil _ hne
        rw [← hall y hy, ← h3 y hy]

example : getLocation {} { name := some "temp_t".toList, standardName := some "sea_temp_at_u_location".toList } = none ∧
    carried {} { name := some "temp_t".toList, standardName := some "sea_temp_at_u_location".toList } =
      ["t".toList, "u".toList] := by decide +kernel

example : getLocation {} { name := some "temp".toList, longName := some "Temp at U location".toList } = some (some "u".toList) := by
  decide +kernel

end Xoa
