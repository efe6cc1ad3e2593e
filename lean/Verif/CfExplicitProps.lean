import Verif.CfExplicit
import Verif.CfMatchProps

/-!
# C196: explicit specifications
-/

namespace Xoa

/-- **C196** (matching): the answer for a dictionary that is not empty is a boolean: whether the array has a text attribute that matches one of the references of the dictionary for this attribute.
The specifications of the category do not matter. -/
theorem C196_match (sg : SG) (cat : CfCat) (loc : MLoc) (da : DObj) (cs : List (Str × Refs)) (hne : cs ≠ []) (r : MatchOut)
    (h : matchArg sg cat loc da (.specs cs) = .ok r) :
    (r = .bool true ∧ ∃ c ∈ cs, Satisfies sg loc da c) ∨ (r = .bool false ∧ ∀ c ∈ cs, ¬ Satisfies sg loc da c) := by
  cases cs with
  | nil => exact absurd rfl hne
  | cons c cs =>
    cases hm : matchCrits sg loc da (c :: cs) with
    | error e =>
      have : matchArg sg cat loc da (.specs (c :: cs)) = .error e := by
        show (matchCrits sg loc da (c :: cs)).map MatchOut.bool = _
        rw [hm]; rfl
      rw [this] at h; cases h
    | ok b =>
      have : matchArg sg cat loc da (.specs (c :: cs)) = .ok (.bool b) := by
        show (matchCrits sg loc da (c :: cs)).map MatchOut.bool = _
        rw [hm]; rfl
      rw [this] at h
      have hr := (Except.ok.inj h).symm
      have hb := matchCrits_iff sg loc da _ b hm
      cases b with
      | true => exact Or.inl ⟨hr, hb.mp rfl⟩
      | false =>
        refine Or.inr ⟨hr, fun c hc hs => ?_⟩
        exact absurd (hb.mpr ⟨c, hc, hs⟩) (by simp)

/-- **C196** (answers): a dictionary of lists always gets an answer for an array with text attributes, unless the location is given as a text. -/
theorem C196_total (sg : SG) (cat : CfCat) (loc : MLoc) (da : DObj) (cs : List (Str × Refs)) (hne : cs ≠ []) (hl : ∀ t, loc ≠ .str t)
    (hc : ∀ c ∈ cs, ∃ l, c.2 = .list l) (ha : ∀ c ∈ cs, ∀ v, da.get c.1 = some v → ∃ s, v = .str s) :
    ∃ b, matchArg sg cat loc da (.specs cs) = .ok (.bool b) := by
  obtain ⟨b, hb⟩ := C44_match_total_partial sg loc da cs hl (fun c hcm => by
    cases hv : da.get c.1 with
    | none => exact Or.inl rfl
    | some v =>
      obtain ⟨s, rfl⟩ := ha c hcm v hv
      obtain ⟨l, hl⟩ := hc c hcm
      refine Or.inr ⟨?_, Or.inl ⟨s, rfl⟩⟩
      rw [hl]; intro he; cases he)
  cases cs with
  | nil => exact absurd rfl hne
  | cons c cs =>
    refine ⟨b, ?_⟩
    show (matchCrits sg loc da (c :: cs)).map MatchOut.bool = _
    rw [hb]; rfl

/-- **C196** (names): matching a known name is matching the dictionary of its criteria. -/
theorem C196_name (sg : SG) (cat : CfCat) (loc : MLoc) (da : DObj) (n : Str) (spec : CfSpec) (hs : lookupS n cat = some spec) (hne : orderedCrits n spec ≠ []) :
    matchArg sg cat loc da (.name n) = matchArg sg cat loc da (.specs (orderedCrits n spec)) := by
  have : matchArg sg cat loc da (.name n) = (matchCrits sg loc da (orderedCrits n spec)).map MatchOut.bool := by
    show (matchName sg cat loc da n).map MatchOut.bool = _
    unfold matchName; rw [hs]
  rw [this]
  cases horder : orderedCrits n spec with
  | nil => exact absurd horder hne
  | cons c cs => rfl

/-- **C196** (order): the order of the keys does not matter to the answer. -/
theorem C196_order (sg : SG) (cat : CfCat) (loc : MLoc) (da : DObj) (cs ds : List (Str × Refs)) (hne : cs ≠ []) (hp : cs.Perm ds) (r r' : MatchOut)
    (h : matchArg sg cat loc da (.specs cs) = .ok r) (h' : matchArg sg cat loc da (.specs ds) = .ok r') : r = r' := by
  have hne' : ds ≠ [] := by
    rintro rfl
    exact hne hp.eq_nil
  rcases C196_match sg cat loc da cs hne r h with ⟨e, c, hc, hs⟩ | ⟨e, hs⟩ <;>
    rcases C196_match sg cat loc da ds hne' r' h' with ⟨e', d, hd, hs'⟩ | ⟨e', hs'⟩
  · rw [e, e']
  · exact absurd hs (hs' c (hp.mem_iff.mp hc))
  · exact absurd hs' (hs d (hp.mem_iff.mpr hd))
  · rw [e, e']

/-- **C196 is violated** by searches: whatever the dataset and the specifications, a search with a dictionary that is not empty raises a `TypeError`. -/
theorem C196_search_violated (sg : SG) (cat : CfCat) (loc : MLoc) (objs : List DObj) (c : Str × Refs) (cs : List (Str × Refs)) :
    searchArgAll sg cat loc objs (.specs (c :: cs)) = .error .typeError := rfl

/-- **C196 is violated** by the empty dictionary: no criterion is satisfied, but the answer is that of a match without name. -/
theorem C196_empty_violated (sg : SG) (cat : CfCat) (loc : MLoc) (da : DObj) (objs : List DObj) :
    matchArg sg cat loc da (.specs []) = matchArg sg cat loc da .none_ ∧
    searchArgAll sg cat loc objs (.specs []) = searchArgAll sg cat loc objs .none_ ∧ ∀ b, matchArg sg cat loc da (.specs []) ≠ .ok (.bool b) := by
  refine ⟨rfl, rfl, fun b h => ?_⟩
  have : (matchAny sg cat loc da).map MatchOut.found = .ok (.bool b) := h
  cases hm : matchAny sg cat loc da with
  | error e => rw [hm] at this; cases this
  | ok o => rw [hm] at this; cases this

theorem strip_single_length (c : Char) : (strip [c]).length ≤ 1 := by
  unfold strip
  have h1 : (rstrip (lstrip [c])).length ≤ (lstrip [c]).length := by
    unfold rstrip
    rw [List.length_reverse]
    refine Nat.le_trans (List.dropWhile_suffix _).length_le ?_
    rw [List.length_reverse]; exact Nat.le_refl _
  have h2 : (lstrip [c]).length ≤ 1 := (List.dropWhile_suffix _).length_le
  omega

/-- **C196 is violated** by texts: a dictionary with a text in place of a list of references is read character by character. An array whose units are this very text, of two characters or more, is not matched. -/
theorem C196_text_violated (sg : SG) (cat : CfCat) (loc : MLoc) (da : DObj) (attr s : Str) (ha : sgAttrOf attr = none) (hs : 2 ≤ (strip s).length) (hv : da.get attr = some (.str s)) :
    matchArg sg cat loc da (.specs [(attr, .text s)]) = .ok (.bool false) := by
  have hrefs : ∀ l : Str, matchRefs sg loc attr (.str s) (l.map fun c => [c]) = .ok false := by
    intro l
    induction l with
    | nil => rfl
    | cons c l ih =>
      obtain ⟨b, hb, hiff⟩ := matchStringV_str s [c]
      have hbf : b = false := by
        cases b with
        | false => rfl
        | true =>
          have h2 := congrArg List.length (hiff.mp rfl).2.2
          rw [lower_length, lower_length] at h2
          have := strip_single_length c
          omega
      have h1 : matchRef sg loc attr (.str s) [c] = .ok false := by
        unfold matchRef
        rw [ha, hb, hbf]
      show (matchRef sg loc attr (.str s) [c]).bind _ = _
      rw [h1]
      exact ih
  show (matchCrits sg loc da [(attr, .text s)]).map MatchOut.bool = _
  have : matchCrits sg loc da [(attr, .text s)] = .ok false := by
    show (matchCrit sg loc da (attr, .text s)).bind _ = _
    have hc : matchCrit sg loc da (attr, .text s) = .ok false := by
      unfold matchCrit
      rw [hv]
      exact hrefs s
    rw [hc]; rfl
  rw [this]; rfl

-- units that are not matched by themselves, and that are matched within a list
example : matchArg {} [] .any (mkObj "lon" [("units", .str "degrees_east".toList)]) (.specs [("units".toList, .text "degrees_east".toList)]) = .ok (.bool false) :=
  C196_text_violated {} [] .any _ _ _ (by decide) (by decide) (by decide)

example : matchArg {} [] .any (mkObj "lon" [("units", .str "degrees_east".toList)]) (.specs [("units".toList, .list ["Degrees_East".toList])]) = .ok (.bool true) := by decide

-- a location in the name
example : matchArg {} [] .any (mkObj "lon_u" []) (.specs [("axis".toList, .list ["X".toList]), ("name".toList, .list ["lat".toList, "lon".toList])]) = .ok (.bool true) := by decide

-- the empty dictionary gives a name
example : matchArg sgTUV defaultCoords .any (mkObj "lon" []) (.specs []) = .ok (.found (some "lon".toList)) := by decide +kernel

end Xoa
