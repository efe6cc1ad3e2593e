import Verif.SGLocLemmas
import Mathlib.Tactic.ByContra

/-! # Round trip and idempotence of located names (C38, C39) -/

namespace Xoa

/-! ## Specification vocabulary -/

/-- a location: letters -/
def isLoc (s : Str) : Prop := s ≠ [] ∧ ∀ c ∈ s, c.isAlpha = true

/-- a root: word characters, and blanks in a long name -/
def isRoot (attr : SGAttr) (s : Str) : Prop :=
  s ≠ [] ∧ ∀ c ∈ s, isWord c = true ∨ (attr = .longName ∧ c = ' ')

/-- the locator knows this location, whatever the case -/
def SG.knows (sg : SG) (loc : Str) : Prop := sg.valid = [] ∨ ∃ l ∈ sg.valid, lower l = lower loc

/-- no other declared location is the beginning of this one -/
def SG.noPrefix (sg : SG) (loc : Str) : Prop :=
  ∀ l ∈ sg.valid, lower l <+: lower loc → lower l = lower loc

/-- a locator whose name format has a separator without letters and nothing after the location,
and whose declared locations are made of letters -/
structure SG.regular (sg : SG) : Prop where
  sep : sg.nameFormat.sep ≠ []
  sepChars : ∀ c ∈ sg.nameFormat.sep, c.isAlpha = false
  post : sg.nameFormat.post = []
  valid : ∀ l ∈ sg.valid, isLoc l

/-! ## Round trip -/

theorem isRoot_class {attr : SGAttr} {root : Str} (h : isRoot attr root) : ∀ c ∈ root, rootClass attr c = true := by
  intro c hc
  rcases h.2 c hc with hw | ⟨rfl, rfl⟩
  · cases attr <;> simp [rootClass, hw]
  · simp [rootClass]

theorem parseRe_fmt (sg : SG) (attr : SGAttr) (root loc : Str) (hr : isRoot attr root)
    (hloc : tryLoc sg.valid (sg.format attr).post (loc ++ (sg.format attr).post) = some loc)
    (hno : ∀ k, 1 ≤ k →
      litMatch (sg.format attr).sep (((sg.format attr).sep ++ (loc ++ (sg.format attr).post)).drop k) = false ∨
      tryLoc sg.valid (sg.format attr).post
        (((sg.format attr).sep ++ (loc ++ (sg.format attr).post)).drop (k + (sg.format attr).sep.length)) = none) :
    parseRe sg attr (fmt (sg.format attr) root loc) = some (root, loc) := by
  generalize hf : sg.format attr = f at *
  have hfmt : fmt f root loc = f.pre ++ (root ++ (f.sep ++ (loc ++ f.post))) := by simp [fmt]
  unfold parseRe
  rw [hf, hfmt]
  simp only [litMatch_append, if_true, List.drop_left]
  have hlen : 1 ≤ root.length := List.length_pos_iff.mpr hr.1
  apply desc_findSome (m := root.length)
  · exact hlen
  · rw [spanLen_append _ _ _ (isRoot_class hr)]; omega
  · unfold tryRoot
    rw [List.drop_left, litMatch_append, if_pos rfl, ← List.append_assoc root f.sep,
      ← List.length_append, List.drop_left, hloc]
    simp
  · intro k h1 h2
    obtain ⟨j, rfl⟩ : ∃ j, k = root.length + j := ⟨k - root.length, by omega⟩
    unfold tryRoot
    rw [List.drop_append, List.drop_of_length_le (by omega), List.nil_append, Nat.add_sub_cancel_left]
    rcases hno j (by omega) with h | h
    · rw [h]; simp
    · split
      · rw [List.drop_append, List.drop_of_length_le (by omega), List.nil_append,
          show root.length + j + f.sep.length - root.length = j + f.sep.length from by omega, h]
        rfl
      · rfl

theorem tryLoc_end (sg : SG) (loc : Str) (hl : isLoc loc) (hk : sg.knows loc) (hp : sg.noPrefix loc) :
    tryLoc sg.valid [] (loc ++ []) = some loc := by
  rcases hk with hk | hk
  · rw [hk]
    exact tryLoc_letters [] loc [] hl.1 hl.2 (by simp [spanLen]) (litMatch_nil _)
  · apply tryLoc_valid _ _ _ _ hk (litMatch_nil _)
    intro l hm h1 _
    rw [litMatch_iff, List.append_nil] at h1
    have := hp l hm h1
    rw [← lower_length, this, lower_length]

theorem drop_letters_head (loc : Str) (ha : ∀ x ∈ loc, x.isAlpha = true) (n : Nat) :
    ∀ x, (loc.drop n).head? = some x → x.isAlpha = true := by
  intro x hx
  have : x ∈ loc.drop n := by
    cases h : loc.drop n with
    | nil => rw [h] at hx; simp at hx
    | cons y t => rw [h] at hx; simp at hx; simp [hx]
  exact ha x (List.mem_of_mem_drop this)

/-- a separator without letters is not found again inside itself or in the letters that follow -/
theorem litMatch_sep (sep loc : Str) (h0 : sep ≠ []) (hs : ∀ c ∈ sep, c.isAlpha = false) (hl : loc ≠ [])
    (ha : ∀ x ∈ loc, x.isAlpha = true) (k : Nat) (hk : 1 ≤ k) : litMatch sep ((sep ++ loc).drop k) = false := by
  by_cases hk2 : sep.length ≤ k
  · rw [List.drop_append, List.drop_of_length_le hk2, List.nil_append]
    cases sep with
    | nil => exact absurd rfl h0
    | cons c s => exact litMatch_letter c s _ (hs c (by simp)) (drop_letters_head loc ha _)
  · by_contra hcon
    rw [Bool.not_eq_false, litMatch_iff] at hcon
    -- compare the characters at position `sep.length - k`
    obtain ⟨t, ht⟩ := hcon
    have hlt : sep.length - k < sep.length := by omega
    have hpos : 0 < loc.length := List.length_pos_iff.mpr hl
    have h1 : (lower sep ++ t)[sep.length - k]? = some (sep[sep.length - k]'hlt).toLower := by
      rw [List.getElem?_append_left (by rw [lower_length]; exact hlt)]
      simp [lower, hlt]
    have h2 : (lower ((sep ++ loc).drop k))[sep.length - k]? = some (loc[0]'hpos).toLower := by
      unfold lower
      rw [List.getElem?_map, List.getElem?_drop, show k + (sep.length - k) = sep.length from by omega,
        List.getElem?_append_right (Nat.le_refl _), Nat.sub_self, List.getElem?_eq_getElem hpos]
      rfl
    rw [ht, h2] at h1
    have h3 := congrArg (Option.map Char.isAlpha) h1
    simp only [Option.map_some, isAlpha_toLower, Option.some.injEq] at h3
    rw [hs _ (List.getElem_mem _), ha _ (List.getElem_mem _)] at h3
    exact absurd h3 (by simp)

theorem parse_name (sg : SG) (hreg : sg.regular) (root loc : Str) (hr : isRoot .name root) (hl : isLoc loc)
    (hk : sg.knows loc) (hp : sg.noPrefix loc) :
    parseRe sg .name (fmt (sg.format .name) root loc) = some (root, loc) := by
  apply parseRe_fmt _ _ _ _ hr
  · show tryLoc sg.valid sg.nameFormat.post (loc ++ sg.nameFormat.post) = some loc
    rw [hreg.post]
    exact tryLoc_end sg loc hl hk hp
  · intro k hk1
    left
    show litMatch sg.nameFormat.sep ((sg.nameFormat.sep ++ (loc ++ sg.nameFormat.post)).drop k) = false
    rw [hreg.post, List.append_nil]
    exact litMatch_sep _ _ hreg.sep hreg.sepChars hl.1 hl.2 k hk1

/-- the text after the location in the standard and long formats -/
def tailOf (c : Char) : Str := c :: "location".toList

theorem tryLoc_mid (sg : SG) (hv : ∀ l ∈ sg.valid, isLoc l) (c : Char) (hc : c.isAlpha = false) (loc : Str) (hl : isLoc loc)
    (hk : sg.knows loc) : tryLoc sg.valid (tailOf c) (loc ++ tailOf c) = some loc := by
  have hself : litMatch (tailOf c) (tailOf c) = true := by
    have := litMatch_append (tailOf c) []
    rwa [List.append_nil] at this
  rcases hk with hk | hk
  · rw [hk]
    refine tryLoc_letters _ loc _ hl.1 hl.2 ?_ hself
    unfold spanLen tailOf
    rw [List.takeWhile_cons, hc]; simp
  · apply tryLoc_valid _ _ _ _ hk hself
    intro l hm h1 h2
    rcases Nat.lt_trichotomy l.length loc.length with hlt | heq | hgt
    · -- shorter: a letter where the separator is expected
      exfalso
      rw [List.drop_append_of_le_length (by omega)] at h2
      have hne : loc.drop l.length ≠ [] := by
        intro e
        have := congrArg List.length e
        rw [List.length_drop, List.length_nil] at this
        omega
      have := litMatch_letter c "location".toList (loc.drop l.length ++ tailOf c) hc
        (head_of_append_letters _ _ hne (fun x hx => hl.2 x (List.mem_of_mem_drop hx)))
      exact absurd (h2.symm.trans this) (by simp)
    · exact heq
    · -- longer: a letter of the declared location in place of the separator
      exfalso
      rw [litMatch_iff] at h1
      obtain ⟨t, ht⟩ := h1
      have e1 : (lower l ++ t)[loc.length]? = some (l[loc.length]'hgt).toLower := by
        rw [List.getElem?_append_left (by rw [lower_length]; exact hgt)]
        simp [lower, hgt]
      have e2 : (lower (loc ++ tailOf c))[loc.length]? = some c.toLower := by
        unfold lower
        rw [List.getElem?_map, List.getElem?_append_right (Nat.le_refl _), Nat.sub_self]
        rfl
      rw [ht, e2] at e1
      have e3 := congrArg (Option.map Char.isAlpha) e1
      simp only [Option.map_some, isAlpha_toLower, Option.some.injEq] at e3
      rw [hc, (hv l hm).2 _ (List.getElem_mem _)] at e3
      exact absurd e3 (by simp)

/-- nothing is parsed in a text of letters only when something must follow -/
theorem tryLoc_none (valid : List Str) (c : Char) (hc : c.isAlpha = false) (rest : Str)
    (ha : ∀ x ∈ rest, x.isAlpha = true) : tryLoc valid (tailOf c) rest = none := by
  have hno : ∀ m, litMatch (tailOf c) (rest.drop m) = false := fun m =>
    litMatch_letter c _ _ hc (drop_letters_head rest ha m)
  unfold tryLoc
  split
  · rw [List.findSome?_eq_none_iff]
    intro m _
    rw [hno]; simp
  · rw [List.findSome?_eq_none_iff]
    intro l _
    rw [hno]; simp

theorem sep_mid (sg : SG) (c : Char) (hc : c.isAlpha = false) (loc : Str) (hl : isLoc loc) (k : Nat) (hk : 1 ≤ k) :
    litMatch [c, 'a', 't', c] (([c, 'a', 't', c] ++ (loc ++ tailOf c)).drop k) = false ∨
    tryLoc sg.valid (tailOf c) (([c, 'a', 't', c] ++ (loc ++ tailOf c)).drop (k + 4)) = none := by
  have hcl : c.toLower.isAlpha = false := by rw [isAlpha_toLower, hc]
  have hne : ∀ x : Char, x.isAlpha = true → x.toLower ≠ c.toLower := by
    intro x hx e
    have := congrArg Char.isAlpha e
    rw [isAlpha_toLower, hx, hcl] at this
    exact absurd this (by simp)
  rcases Nat.lt_or_ge k 4 with h4 | h4
  · have : k = 1 ∨ k = 2 ∨ k = 3 := by omega
    rcases this with rfl | rfl | rfl
    · left
      exact litMatch_letter c _ _ hc (by intro x hx; simp at hx; subst hx; decide)
    · left
      exact litMatch_letter c _ _ hc (by intro x hx; simp at hx; subst hx; decide)
    · -- only a location of two letters could hide a separator
      obtain ⟨hl1, hl2⟩ := hl
      match loc, hl1, hl2 with
      | [], h, _ => exact absurd rfl h
      | [x], _, _ =>
        left
        simp only [List.cons_append, List.nil_append, List.drop_succ_cons, List.drop_zero, tailOf, litMatch_cons_cons]
        have : c.toLower ≠ ('t' : Char).toLower := fun e => hne 't' (by decide) e.symm
        rw [decide_eq_false this]
        simp
      | [x, y], _, _ =>
        right
        apply tryLoc_none _ _ hc
        intro z hz
        simp only [List.cons_append, List.nil_append, tailOf, List.drop_succ_cons, List.drop_zero] at hz
        have : ∀ z ∈ "location".toList, z.isAlpha = true := by decide
        exact this z hz
      | x :: y :: z :: r, _, h =>
        left
        simp only [List.cons_append, List.nil_append, List.drop_succ_cons, List.drop_zero, litMatch_cons_cons]
        have : z.toLower ≠ c.toLower := hne z (h z (by simp))
        simp [this]
  · obtain ⟨j, rfl⟩ : ∃ j, k = 4 + j := ⟨k - 4, by omega⟩
    left
    rw [← List.drop_drop]
    have : ([c, 'a', 't', c] ++ (loc ++ tailOf c)).drop 4 = loc ++ tailOf c := rfl
    rw [this]
    rcases Nat.lt_trichotomy j loc.length with hlt | heq | hgt
    · rw [List.drop_append_of_le_length (by omega)]
      have hne' : loc.drop j ≠ [] := by
        intro e
        have := congrArg List.length e
        rw [List.length_drop, List.length_nil] at this
        omega
      exact litMatch_letter c _ _ hc (head_of_append_letters _ _ hne' (fun x hx => hl.2 x (List.mem_of_mem_drop hx)))
    · rw [heq, List.drop_left]
      simp only [tailOf, litMatch_cons_cons]
      have : "location".toList = 'l' :: "ocation".toList := by decide
      rw [this, litMatch_cons_cons]
      simp
    · rw [List.drop_append, List.drop_of_length_le (by omega), List.nil_append]
      obtain ⟨i, hi⟩ : ∃ i, j - loc.length = i + 1 := ⟨j - loc.length - 1, by omega⟩
      rw [hi]
      show litMatch [c, 'a', 't', c] ("location".toList.drop i) = false
      exact litMatch_letter c _ _ hc (drop_letters_head _ (by decide) i)

theorem parse_located (sg : SG) (hv : ∀ l ∈ sg.valid, isLoc l) (attr : SGAttr) (hattr : attr ≠ .name) (root loc : Str)
    (hr : isRoot attr root) (hl : isLoc loc) (hk : sg.knows loc) :
    parseRe sg attr (fmt (sg.format attr) root loc) = some (root, loc) := by
  cases attr with
  | name => exact absurd rfl hattr
  | standardName =>
    apply parseRe_fmt _ _ _ _ hr
    · exact tryLoc_mid sg hv '_' (by decide) loc hl hk
    · intro k hk1
      exact sep_mid sg '_' (by decide) loc hl k hk1
  | longName =>
    apply parseRe_fmt _ _ _ _ hr
    · exact tryLoc_mid sg hv ' ' (by decide) loc hl hk
    · intro k hk1
      exact sep_mid sg ' ' (by decide) loc hl k hk1

/-- **C38**: for the three attributes, parsing a formatted name gives back its root and its
location in lower case, for every root and every known location. For the name, no other declared
location may be the beginning of the location (see C40). -/
theorem C38_round_trip (sg : SG) (hreg : sg.regular) (attr : SGAttr) (root loc : Str) (hr : isRoot attr root)
    (hl : isLoc loc) (hk : sg.knows loc) (hp : attr = .name → sg.noPrefix loc) :
    parseAttr sg attr (fmt (sg.format attr) root loc) = (root, some (lower loc)) := by
  unfold parseAttr
  by_cases ha : attr = .name
  · subst ha
    rw [parse_name sg hreg root loc hr hl hk (hp rfl)]
  · rw [parse_located sg hreg.valid attr ha root loc hr hl hk]

example : (SG.regular {}) ∧ isRoot .name "super_banana".toList ∧ isLoc "rho".toList ∧ SG.knows {} "rho".toList ∧
    SG.noPrefix {} "rho".toList ∧
    fmt (SG.format {} .name) "super_banana".toList "rho".toList = "super_banana_rho".toList := by
  refine ⟨⟨by decide, by decide, rfl, by simp⟩, ⟨by decide, by decide⟩, ⟨by decide, by decide⟩, Or.inl rfl, ?_, by decide⟩
  intro l hl; simp at hl

/-- **C38**: distinct (root, location) pairs are formatted to distinct attributes -/
theorem C38_injective (sg : SG) (hreg : sg.regular) (attr : SGAttr) (root root' loc loc' : Str)
    (hr : isRoot attr root) (hr' : isRoot attr root') (hl : isLoc loc) (hl' : isLoc loc') (hk : sg.knows loc)
    (hk' : sg.knows loc') (hp : attr = .name → sg.noPrefix loc) (hp' : attr = .name → sg.noPrefix loc')
    (he : fmt (sg.format attr) root loc = fmt (sg.format attr) root' loc') : root = root' ∧ lower loc = lower loc' := by
  have h1 := C38_round_trip sg hreg attr root loc hr hl hk hp
  have h2 := C38_round_trip sg hreg attr root' loc' hr' hl' hk' hp'
  rw [he, h2] at h1
  simp only [Prod.mk.injEq, Option.some.injEq] at h1
  exact ⟨h1.1.symm, h1.2.symm⟩

end Xoa
