import Verif.SGName
import Verif.SGLocProps

/-!
# C195: any name format
-/

namespace Xoa

theorem reFix_plain (lit s : Str) (h : ∀ c ∈ lit, plainRe c = true) : reFix lit s = litMatch lit s := by
  induction lit generalizing s with
  | nil => rw [litMatch_nil]; rfl
  | cons c lit ih =>
    cases s with
    | nil => rw [litMatch_cons_nil]; rfl
    | cons x s =>
      have hc : c ≠ '.' := by
        rintro rfl
        exact absurd (h '.' (by simp)) (by decide)
      rw [litMatch_cons_cons, ← ih s (fun d hd => h d (List.mem_cons_of_mem _ hd))]
      show ((if c = '.' then decide (x ≠ '\n') else decide (x.toLower = c.toLower)) && reFix lit s) = _
      rw [if_neg hc]

/-- the fixed parts of the format have no special character -/
def NFormat.plain (f : NFormat) : Prop := ∀ c ∈ f.pre ++ f.sep ++ f.post, plainRe c = true

theorem NFormat.plain.pre {f : NFormat} (h : f.plain) : ∀ c ∈ f.pre, plainRe c = true := fun c hc => h c (by simp [hc])
theorem NFormat.plain.sep {f : NFormat} (h : f.plain) : ∀ c ∈ f.sep, plainRe c = true := fun c hc => h c (by simp [hc])
theorem NFormat.plain.post {f : NFormat} (h : f.plain) : ∀ c ∈ f.post, plainRe c = true := fun c hc => h c (by simp [hc])

theorem findSome_filter_map {α β γ : Type} (p : α → Bool) (g : α → β) (F : β → Option γ) (l : List α) :
    ((l.filter p).map g).findSome? F = l.findSome? (fun a => if p a then F (g a) else none) := by
  induction l with
  | nil => rfl
  | cons a l ih =>
    by_cases hp : p a = true
    · simp only [List.filter_cons, hp, if_true, List.map_cons, List.findSome?_cons, ih]
    · simp only [List.filter_cons, hp, if_false, List.findSome?_cons, ih, Bool.false_eq_true]

theorem findSome_map_some {α β γ : Type} (l : List α) (F : α → Option β) (g : β → γ) :
    (l.findSome? F).map g = l.findSome? (fun a => (F a).map g) := by
  induction l with
  | nil => rfl
  | cons a l ih =>
    simp only [List.findSome?_cons]
    cases F a with
    | none => exact ih
    | some b => rfl

/-- **C195** (root before location): with fixed parts without special characters, the locator is the one of C38-C42, of which the theorems apply. -/
theorem C195_root_first (f : NFormat) (valid : List Str) (hf : f.rootFirst = true) (hp : f.plain) (value : Str) :
    parseName f valid value = parseAttr ⟨⟨f.pre, f.sep, f.post⟩, valid⟩ .name value := by
  have key : parseNF f valid value = parseRe ⟨⟨f.pre, f.sep, f.post⟩, valid⟩ .name value := by
    unfold parseNF parseRe
    rw [reFix_plain _ _ hp.pre]
    simp only [hf, if_true, SG.format]
    congr 1
    have hcl : rootClass .name = isWord := rfl
    rw [hcl]
    congr 1
    funext n
    unfold tryRoot
    rw [reFix_plain _ _ hp.sep]
    congr 1
    unfold tryLoc locLens
    by_cases hv : valid = []
    · simp only [hv, if_true]
      rw [findSome_map_some]
      congr 1
      funext m
      rw [reFix_plain _ _ hp.post]
      split <;> rfl
    · simp only [hv, if_false]
      rw [findSome_filter_map, findSome_map_some]
      congr 1
      funext l
      rw [reFix_plain _ _ hp.post]
      by_cases h1 : litMatch l (value.drop f.pre.length |>.drop (n + f.sep.length)) = true
      · simp only [h1, if_true, Bool.true_and]
        split <;> rfl
      · simp only [h1, Bool.false_eq_true, if_false, Bool.false_and]
        rfl
  unfold parseName parseAttr
  rw [key]
  cases parseRe ⟨⟨f.pre, f.sep, f.post⟩, valid⟩ .name value <;> rfl

/-- a location starting at the beginning of a string of letters followed by a character that is not a letter -/
theorem spanLen_letters (loc : Str) (hl : ∀ c ∈ loc, c.isAlpha = true) (x : Char) (hx : x.isAlpha = false) (s : Str) :
    spanLen Char.isAlpha (loc ++ x :: s) = loc.length := by
  rw [spanLen_append _ _ _ hl]
  simp [spanLen, hx]

theorem reFix_append (lit s : Str) (h : ∀ c ∈ lit, plainRe c = true) : reFix lit (lit ++ s) = true := by
  rw [reFix_plain _ _ h, litMatch_append]

theorem reFix_length (lit s : Str) (h : reFix lit s = true) : lit.length ≤ s.length := by
  induction lit generalizing s with
  | nil => simp
  | cons c lit ih =>
    cases s with
    | nil => cases h
    | cons x s =>
      have : ((if c = '.' then decide (x ≠ '\n') else decide (x.toLower = c.toLower)) && reFix lit s) = true := h
      rw [Bool.and_eq_true] at this
      have := ih s this.2
      simp only [List.length_cons]; omega

/-- the root group and the end, at the beginning of a text written by the format -/
theorem root_end (post root : Str) (hpost : ∀ c ∈ post, plainRe c = true) (hr : root ≠ [] ∧ ∀ c ∈ root, isWord c = true) (loc : Str) :
    (desc (spanLen isWord (root ++ post))).findSome? (fun n => if reFix post ((root ++ post).drop n) then some ((root ++ post).take n, loc) else none) = some (root, loc) := by
  have hlen : 1 ≤ root.length := by
    rcases hr with ⟨h, -⟩
    cases root with
    | nil => exact absurd rfl h
    | cons c r => simp
  have hspan := spanLen_append isWord root post hr.2
  by_cases hpe : post = []
  · subst hpe
    refine desc_findSome _ _ root.length _ hlen (by rw [hspan]; omega) ?_ ?_
    · simp [reFix]
    · intro k h1 h2
      rw [hspan] at h2
      simp [spanLen] at h2
      omega
  · refine desc_findSome _ _ root.length _ hlen (by rw [hspan]; omega) ?_ ?_
    · rw [List.drop_left, List.take_left]
      have := reFix_append post [] hpost
      rw [List.append_nil] at this
      rw [if_pos this]
    · intro k h1 h2
      rw [if_neg]
      intro h
      have := reFix_length _ _ h
      rw [List.length_drop, List.length_append] at this
      have : 1 ≤ post.length := by
        cases post with
        | nil => exact absurd rfl hpe
        | cons c r => simp
      omega

/-- **C195** (location before root): with fixed parts without special characters and a separator that does not start with a letter, parsing the name that is written for a root of word characters and
a location of letters gives back this root and this location, in lower case; valid locations, if any, are made of letters and contain this one. -/
theorem C195_loc_first (f : NFormat) (valid : List Str) (hf : f.rootFirst = false) (hp : f.plain) (x : Char) (sep : Str) (hs : f.sep = x :: sep) (hx : x.isAlpha = false)
    (root loc : Str) (hr : root ≠ [] ∧ ∀ c ∈ root, isWord c = true) (hl : isLoc loc)
    (hv : ∀ l ∈ valid, isLoc l) (hk : valid = [] ∨ ∃ l ∈ valid, lower l = lower loc) :
    parseName f valid (fmtName f root loc) = (root, some (lower loc)) := by
  have key : parseNF f valid (fmtName f root loc) = some (root, loc) := by
    unfold parseNF fmtName
    simp only [hf, Bool.false_eq_true, if_false]
    have e0 : f.pre ++ loc ++ f.sep ++ root ++ f.post = f.pre ++ (loc ++ (f.sep ++ (root ++ f.post))) := by simp
    rw [e0, reFix_append _ _ hp.pre, if_pos rfl, List.drop_left]
    have hat : (if reFix f.sep ((loc ++ (f.sep ++ (root ++ f.post))).drop loc.length) = true then
          (desc (spanLen isWord ((loc ++ (f.sep ++ (root ++ f.post))).drop (loc.length + f.sep.length)))).findSome? (fun n =>
            if reFix f.post (((loc ++ (f.sep ++ (root ++ f.post))).drop (loc.length + f.sep.length)).drop n) then
              some (((loc ++ (f.sep ++ (root ++ f.post))).drop (loc.length + f.sep.length)).take n, (loc ++ (f.sep ++ (root ++ f.post))).take loc.length) else none)
        else none) = some (root, loc) := by
      rw [List.drop_left, reFix_append _ _ hp.sep, if_pos rfl, ← List.drop_drop, List.drop_left, List.drop_left, List.take_left]
      exact root_end f.post root hp.post hr loc
    have hbad : ∀ m, m < loc.length → reFix f.sep ((loc ++ (f.sep ++ (root ++ f.post))).drop m) = false := by
      intro m hm
      rw [reFix_plain _ _ hp.sep, hs, List.drop_append_of_le_length (by omega)]
      refine litMatch_letter x sep _ hx (head_of_append_letters _ _ ?_ (fun y hy => hl.2 y (List.mem_of_mem_drop hy)))
      intro e
      have := congrArg List.length e
      rw [List.length_drop, List.length_nil] at this
      omega
    have hl1 : 1 ≤ loc.length := by
      cases hloc : loc with
      | nil => exact absurd hloc hl.1
      | cons c r => simp
    unfold locLens
    by_cases hv0 : valid = []
    · rw [if_pos hv0]
      have hsp : spanLen Char.isAlpha (loc ++ (f.sep ++ (root ++ f.post))) = loc.length := by
        rw [hs]; exact spanLen_letters loc hl.2 x hx _
      refine desc_findSome _ _ loc.length _ hl1 (Nat.le_of_eq hsp.symm) hat ?_
      intro k h1 h2
      rw [hsp] at h2; omega
    · rw [if_neg hv0, findSome_filter_map]
      obtain ⟨l0, hl0, he0⟩ := hk.resolve_left hv0
      have hstep : ∀ l ∈ valid, litMatch l (loc ++ (f.sep ++ (root ++ f.post))) = true → l.length ≠ loc.length →
          reFix f.sep ((loc ++ (f.sep ++ (root ++ f.post))).drop l.length) = false := by
        intro l hlv hm hne
        rcases Nat.lt_or_gt_of_ne hne with hlt | hgt
        · exact hbad _ hlt
        · -- a longer text of letters cannot match beyond the location
          exfalso
          rw [litMatch_iff] at hm
          have hget : (lower l)[loc.length]? = (lower (loc ++ (f.sep ++ (root ++ f.post))))[loc.length]? := by
            obtain ⟨t, ht⟩ := hm
            rw [← ht, List.getElem?_append_left (by rw [lower_length]; exact hgt)]
          have h1 : (lower (loc ++ (f.sep ++ (root ++ f.post))))[loc.length]? = some x.toLower := by
            unfold lower
            rw [List.getElem?_map, List.getElem?_append_right (Nat.le_refl _), hs]
            simp
          rw [h1] at hget
          unfold lower at hget
          rw [List.getElem?_map] at hget
          cases hy : l[loc.length]? with
          | none => rw [hy] at hget; cases hget
          | some y =>
            rw [hy] at hget
            have e1 : y.toLower = x.toLower := Option.some.inj hget
            have h2 : y.isAlpha = true := (hv l hlv).2 y (List.mem_of_getElem? hy)
            rw [← isAlpha_toLower, e1, isAlpha_toLower, hx] at h2
            cases h2
      have hlen0 : l0.length = loc.length := by
        have := congrArg List.length he0
        rwa [lower_length, lower_length] at this
      have hm0 : litMatch l0 (loc ++ (f.sep ++ (root ++ f.post))) = true := by
        rw [litMatch_iff, he0]
        unfold lower
        rw [List.map_append]
        exact List.prefix_append _ _
      clear hk
      clear hv0 hv
      have hgen : ∀ vs : List Str, (∀ l ∈ vs, l ∈ valid) → l0 ∈ vs →
          vs.findSome? (fun l => if litMatch l (loc ++ (f.sep ++ (root ++ f.post))) = true then
            (if reFix f.sep ((loc ++ (f.sep ++ (root ++ f.post))).drop l.length) = true then
              (desc (spanLen isWord ((loc ++ (f.sep ++ (root ++ f.post))).drop (l.length + f.sep.length)))).findSome? (fun n =>
                if reFix f.post (((loc ++ (f.sep ++ (root ++ f.post))).drop (l.length + f.sep.length)).drop n) then
                  some (((loc ++ (f.sep ++ (root ++ f.post))).drop (l.length + f.sep.length)).take n, (loc ++ (f.sep ++ (root ++ f.post))).take l.length) else none)
            else none) else none) = some (root, loc) := by
        intro vs hsub hmem
        induction vs with
        | nil => cases hmem
        | cons l vs ih =>
          rw [List.findSome?_cons]
          by_cases h1 : litMatch l (loc ++ (f.sep ++ (root ++ f.post))) = true
          · by_cases h2 : l.length = loc.length
            · rw [if_pos h1, h2, hat]
            · have h3 := hstep l (hsub l (by simp)) h1 h2
              rw [if_pos h1, h3, if_neg (by simp)]
              rcases List.mem_cons.mp hmem with rfl | hmem
              · exact absurd hlen0 h2
              · exact ih (fun a ha => hsub a (List.mem_cons_of_mem _ ha)) hmem
          · rw [if_neg h1]
            rcases List.mem_cons.mp hmem with rfl | hmem
            · exact absurd hm0 h1
            · exact ih (fun a ha => hsub a (List.mem_cons_of_mem _ ha)) hmem
      exact hgen valid (fun _ h => h) hl0
  unfold parseName
  rw [key]

-- the format `{loc}_{root}`
example : parseName { rootFirst := false, sep := "_".toList } [] (fmtName { rootFirst := false, sep := "_".toList } "temp_bottom".toList "U".toList) = ("temp_bottom".toList, some "u".toList) :=
  C195_loc_first _ [] rfl (by unfold NFormat.plain; decide) '_' [] rfl (by decide) _ _ ⟨by decide, by decide⟩ ⟨by decide, by decide⟩ (by simp) (Or.inl rfl)

-- with valid locations, one of them being the beginning of another one
example : parseName { rootFirst := false, sep := "_".toList } ["r".toList, "rho".toList] (fmtName { rootFirst := false, sep := "_".toList } "temp".toList "rho".toList) = ("temp".toList, some "rho".toList) :=
  C195_loc_first _ _ rfl (by unfold NFormat.plain; decide) '_' [] rfl (by decide) _ _ ⟨by decide, by decide⟩ ⟨by decide, by decide⟩ (by unfold isLoc; decide) (Or.inr ⟨"rho".toList, by decide, rfl⟩)

/-- a fixed part that matches somewhere is contained in the value, whatever the case -/
theorem reFix_infix (lit value : Str) (n : Nat) (hp : ∀ c ∈ lit, plainRe c = true) (h : reFix lit (value.drop n) = true) : lower lit <:+: lower value := by
  rw [reFix_plain _ _ hp, litMatch_iff] at h
  refine h.isInfix.trans ?_
  unfold lower
  rw [List.map_drop]
  exact (List.drop_suffix _ _).isInfix

/-- **C195** (other names): a name that does not contain, whatever the case, one of the fixed parts of the format is left as it is, without location. -/
theorem C195_unchanged (f : NFormat) (valid : List Str) (hp : f.plain) (value : Str)
    (h : ¬ lower f.pre <:+: lower value ∨ ¬ lower f.sep <:+: lower value ∨ ¬ lower f.post <:+: lower value) :
    parseName f valid value = (value, none) ∧ ((∀ c ∈ value, c ≠ ' ') → keepName f valid value = value) := by
  have key : parseNF f valid value = none := by
    cases hm : parseNF f valid value with
    | none => rfl
    | some rl =>
      exfalso
      have hall : lower f.pre <:+: lower value ∧ lower f.sep <:+: lower value ∧ lower f.post <:+: lower value := by
        unfold parseNF at hm
        split at hm
        · rename_i h1
          refine ⟨reFix_infix f.pre value 0 hp.pre h1, ?_⟩
          dsimp only at hm
          split at hm
          · obtain ⟨n, -, hn⟩ := List.exists_of_findSome?_eq_some hm
            split at hn
            · rename_i h2
              obtain ⟨m, -, hm⟩ := List.exists_of_findSome?_eq_some hn
              split at hm
              · rename_i h3
                rw [List.drop_drop] at h2
                rw [List.drop_drop, List.drop_drop] at h3
                exact ⟨reFix_infix _ _ _ hp.sep h2, reFix_infix _ _ _ hp.post h3⟩
              · cases hm
            · cases hn
          · obtain ⟨n, -, hn⟩ := List.exists_of_findSome?_eq_some hm
            split at hn
            · rename_i h2
              obtain ⟨m, -, hm⟩ := List.exists_of_findSome?_eq_some hn
              split at hm
              · rename_i h3
                rw [List.drop_drop] at h2
                rw [List.drop_drop, List.drop_drop] at h3
                exact ⟨reFix_infix _ _ _ hp.sep h2, reFix_infix _ _ _ hp.post h3⟩
              · cases hm
            · cases hn
        · cases hm
      rcases h with h | h | h
      · exact h hall.1
      · exact h hall.2.1
      · exact h hall.2.2
  have hpn : parseName f valid value = (value, none) := by unfold parseName; rw [key]
  refine ⟨hpn, fun hs => ?_⟩
  unfold keepName
  rw [hpn]
  show replaceC ' ' '_' value = value
  unfold replaceC
  rw [List.map_congr_left (g := id), List.map_id]
  intro y hy
  rw [if_neg (hs y hy)]; rfl

-- a name without separator
example : parseName { rootFirst := false, sep := "_".toList } [] "temp".toList = ("temp".toList, none) ∧
    ((∀ c ∈ "temp".toList, c ≠ ' ') → keepName { rootFirst := false, sep := "_".toList } [] "temp".toList = "temp".toList) :=
  C195_unchanged _ _ (by unfold NFormat.plain; decide) _ (Or.inr (Or.inl (by decide)))

/-- **C195** (accepted formats): a format is accepted if and only if it contains the two fields; without a format (or an empty one) the default one is used. In particular all the formats with a root and a
location are accepted. -/
theorem C195_accepted (nf : Str) (h : nf ≠ []) :
    ((∃ w, checkNameFormat (some nf) = .ok w) ↔ (rootField <:+: nf ∧ locField <:+: nf)) ∧ ∀ f : NFormat, ∃ w, checkNameFormat (some f.text) = .ok w := by
  have gen : ∀ nf : Str, nf ≠ [] → ((∃ w, checkNameFormat (some nf) = .ok w) ↔ (rootField <:+: nf ∧ locField <:+: nf)) := by
    intro nf h
    unfold checkNameFormat
    simp only [h, if_false]
    by_cases h1 : rootField <:+: nf <;> by_cases h2 : locField <:+: nf <;> simp [h1, h2]
  refine ⟨gen nf h, ?_⟩
  intro f
  have hr : rootField <:+: f.text := by
    unfold NFormat.text
    split
    · exact ⟨f.pre, f.sep ++ locField ++ f.post, by simp⟩
    · exact ⟨f.pre ++ locField ++ f.sep, f.post, by simp⟩
  have hl : locField <:+: f.text := by
    unfold NFormat.text
    split
    · exact ⟨f.pre ++ rootField ++ f.sep, f.post, by simp⟩
    · exact ⟨f.pre, f.sep ++ rootField ++ f.post, by simp⟩
  refine (gen f.text ?_).mpr ⟨hr, hl⟩
  intro he
  rw [he] at hr
  obtain ⟨a, b, hab⟩ := hr
  have := congrArg List.length hab
  rw [List.length_append, List.length_append] at this
  have h6 : rootField.length = 6 := by decide
  rw [h6, List.length_nil] at this
  omega

/-- two fields do not overlap: a format that is accepted has at least 11 characters -/
theorem fields_length (nf : Str) (hr : rootField <:+: nf) (hl : locField <:+: nf) : 11 ≤ nf.length := by
  obtain ⟨a, b, hab⟩ := hr
  obtain ⟨c, d, hcd⟩ := hl
  have h6 : rootField.length = 6 := by decide
  have h5 : locField.length = 5 := by decide
  have hr : ∀ k, k < 6 → nf[a.length + k]? = rootField[k]? := by
    intro k hk
    rw [← hab, List.append_assoc, List.getElem?_append_right (by omega), List.getElem?_append_left (by omega)]
    congr 1; omega
  have hl : ∀ k, k < 5 → nf[c.length + k]? = locField[k]? := by
    intro k hk
    rw [← hcd, List.append_assoc, List.getElem?_append_right (by omega), List.getElem?_append_left (by omega)]
    congr 1; omega
  have la : nf.length = a.length + 6 + b.length := by rw [← hab, List.length_append, List.length_append, h6]
  have lc : nf.length = c.length + 5 + d.length := by rw [← hcd, List.length_append, List.length_append, h5]
  by_contra hlt
  rcases Nat.lt_or_ge c.length a.length with h | h
  · -- the root starts inside the location
    obtain ⟨k, hk⟩ : ∃ k, a.length = c.length + k := ⟨a.length - c.length, by omega⟩
    have hk5 : k < 5 := by omega
    have hk0 : 0 < k := by omega
    have e1 := hr 0 (by omega)
    rw [Nat.add_zero, hk, hl k hk5] at e1
    have hd : ∀ k : Fin 5, 0 < k.val → locField[k.val]? ≠ rootField[0]? := by decide
    exact hd ⟨k, hk5⟩ hk0 e1
  · obtain ⟨k, hk⟩ : ∃ k, c.length = a.length + k := ⟨c.length - a.length, by omega⟩
    have hk6 : k < 6 := by omega
    have e1 := hl 0 (by omega)
    rw [Nat.add_zero, hk, hr k hk6] at e1
    have hd : ∀ k : Fin 6, rootField[k.val]? = locField[0]? → k.val = 0 := by decide
    have hk0 : k = 0 := hd ⟨k, hk6⟩ e1
    have e2 := hl 1 (by omega)
    rw [hk, hk0, Nat.add_zero, hr 1 (by omega)] at e2
    exact absurd e2 (by decide)

/-- **C195 is violated** by ambiguous formats: the warning for formats without separator is emitted for no format at all (the length it tests, 10, is not the one of `{root}{loc}`, 11). -/
theorem C195_never_warned_violated (nf : Str) : checkNameFormat (some nf) ≠ .ok true := by
  unfold checkNameFormat
  by_cases h0 : nf = []
  · simp [h0]
  · by_cases h1 : rootField <:+: nf
    · by_cases h2 : locField <:+: nf
      · have := fields_length nf h1 h2
        simp only [h0, h1, h2, not_true, or_self, if_false]
        intro he
        have := Except.ok.inj he
        rw [decide_eq_true_eq] at this
        omega
      · simp [h0, h2]
    · simp [h0, h1]

/-- without separator, the last letter of any name is taken for a location -/
theorem C195_no_separator_violated (s : Str) (c : Char) (hs : s ≠ [] ∧ ∀ x ∈ s, isWord x = true) (hc : c.isAlpha = true) :
    parseName {} [] (s ++ [c]) = (s, some [c.toLower]) := by
  have key : parseNF {} [] (s ++ [c]) = some (s, [c]) := by
    unfold parseNF
    simp only [reFix, if_true, List.length_nil, List.drop_zero, Nat.add_zero]
    have hw : ∀ x ∈ s ++ [c], isWord x = true := by
      intro x hx
      rcases List.mem_append.mp hx with h | h
      · exact hs.2 x h
      · rw [List.mem_singleton.mp h]; exact alpha_word c hc
    have hsp : spanLen isWord (s ++ [c]) = s.length + 1 := by
      have := spanLen_append isWord (s ++ [c]) [] hw
      rw [List.append_nil] at this
      rw [this]; simp [spanLen]
    have hlen : 1 ≤ s.length := by
      cases hss : s with
      | nil => exact absurd hss hs.1
      | cons c r => simp
    refine desc_findSome _ _ s.length _ hlen (by rw [hsp]; omega) ?_ ?_
    · rw [List.drop_left, List.take_left]
      simp [locLens, spanLen, hc, desc]
    · intro k h1 h2
      rw [hsp] at h2
      have : k = s.length + 1 := by omega
      rw [this, List.drop_of_length_le (by simp)]
      simp [locLens, spanLen, desc]
  unfold parseName
  rw [key]
  rfl

/-- **C195 is violated** by special characters: they are not quoted in the regular expression. With the format `{root}.{loc}`, the last letter of any name without dot of three characters or more is taken for a
location, and such a name is changed when it is formatted with its location kept. -/
theorem C195_dot_violated (r : Str) (x l : Char) (hr : r ≠ [] ∧ ∀ y ∈ r, isWord y = true) (hx : isWord x = true) (hl : l.isAlpha = true) :
    parseName { sep := ".".toList } [] (r ++ [x, l]) = (r, some [l.toLower]) ∧ keepName { sep := ".".toList } [] (r ++ [x, l]) = r ++ ['.', l.toLower] := by
  have hxn : x ≠ '\n' := by rintro rfl; exact absurd hx (by decide)
  have key : parseNF { sep := ".".toList } [] (r ++ [x, l]) = some (r, [l]) := by
    unfold parseNF
    have hsep : ".".toList = ['.'] := by decide
    simp only [reFix, if_true, List.length_nil, List.drop_zero, hsep, List.length_cons, Nat.zero_add]
    have hw : ∀ y ∈ r ++ [x, l], isWord y = true := by
      intro y hy
      rcases List.mem_append.mp hy with h | h
      · exact hr.2 y h
      · rcases List.mem_cons.mp h with rfl | h
        · exact hx
        · rw [List.mem_singleton.mp h]; exact alpha_word l hl
    have hsp : spanLen isWord (r ++ [x, l]) = r.length + 2 := by
      have := spanLen_append isWord (r ++ [x, l]) [] hw
      rw [List.append_nil] at this
      rw [this]; simp [spanLen]
    have hlen : 1 ≤ r.length := by
      cases hss : r with
      | nil => exact absurd hss hr.1
      | cons c r => simp
    refine desc_findSome _ _ r.length _ hlen (by rw [hsp]; omega) ?_ ?_
    · rw [← List.drop_drop, List.drop_left, List.take_left]
      simp [locLens, spanLen, hl, desc, hxn, reFix]
    · intro k h1 h2
      rw [hsp] at h2
      have h3 : k = r.length + 1 ∨ k = r.length + 2 := by omega
      rcases h3 with rfl | rfl
      · have : (r ++ [x, l]).drop (r.length + 1) = [l] := by rw [← List.drop_drop, List.drop_left]; rfl
        have h4 : (r ++ [x, l]).drop (r.length + 1 + 1) = [] := by rw [Nat.add_assoc, ← List.drop_drop, List.drop_left]; rfl
        rw [this, h4]
        simp [locLens, spanLen, desc]
      · have : (r ++ [x, l]).drop (r.length + 2) = [] := by rw [← List.drop_drop, List.drop_left]; rfl
        rw [this]
        simp [reFix]
  have hp : parseName { sep := ".".toList } [] (r ++ [x, l]) = (r, some [l.toLower]) := by
    unfold parseName; rw [key]; rfl
  refine ⟨hp, ?_⟩
  unfold keepName
  rw [hp]
  have hrep : replaceC ' ' '_' r = r := by
    unfold replaceC
    rw [List.map_congr_left (g := id), List.map_id]
    intro y hy
    rw [if_neg]
    · rfl
    · rintro rfl; exact absurd (hr.2 ' ' hy) (by decide)
  simp only [hrep, fmtName]
  simp

-- `temperature` becomes `temperatu.e`
example : keepName { sep := ".".toList } [] "temperature".toList = "temperatu.e".toList :=
  (C195_dot_violated "temperatu".toList 'r' 'e' ⟨by decide, by decide⟩ (by decide) (by decide)).2

end Xoa
