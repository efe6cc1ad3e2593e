import Verif.MiscFilterProps

/-!
# C239: filtering keywords in several calls

No new model. `dict_filter` (xoa/misc.py:407-479).
-/

namespace Xoa

/-! ## Proofs -/

theorem or_if {α : Type} (A L : Option α) (c : Prop) [Decidable c] (v : α) :
    A.or (if c then some v else L) = (A.or (if c then some v else none)).or L := by
  cases A <;> by_cases h : c <;> simp [h]

theorem lookupS_setS_nil {α : Type} (k a : Str) (v : α) : lookupS k (setS a v []) = if k = a then some v else none := by
  rw [lookupS_setS]; rfl

theorem update_or {α : Type} (k : Str) (e d : List (Str × α)) : lookupS k (updateS d e) = (lookupS k (updateS [] e)).or (lookupS k d) := by
  induction e generalizing d with
  | nil => simp [updateS, lookupS]
  | cons p e ih =>
    have h1 : updateS d (p :: e) = updateS (setS p.1 p.2 d) e := rfl
    have h2 : updateS [] (p :: e) = updateS (setS p.1 p.2 []) e := rfl
    rw [h1, h2, ih (setS p.1 p.2 d), ih (setS p.1 p.2 []), lookupS_setS, lookupS_setS_nil, or_if]

theorem items_or {α : Type} (copy keep : Bool) (pre : Str) (items kw out : List (Str × KW α)) (k : Str) :
    (filterItems copy keep pre items kw out).1 = (filterItems copy keep pre items kw []).1 ∧
    lookupS k (filterItems copy keep pre items kw out).2 = (lookupS k (filterItems copy keep pre items kw []).2).or (lookupS k out) := by
  induction items generalizing kw out with
  | nil => simp [filterItems, lookupS]
  | cons p items ih =>
    obtain ⟨a, v⟩ := p
    simp only [filterItems]
    split
    · constructor
      · rw [(ih _ (setS (if keep = true then a else List.drop pre.length a) v out)).1, (ih _ (setS (if keep = true then a else List.drop pre.length a) v [])).1]
      · rw [(ih _ (setS (if keep = true then a else List.drop pre.length a) v out)).2, (ih _ (setS (if keep = true then a else List.drop pre.length a) v [])).2, lookupS_setS, lookupS_setS_nil, or_if]
    · exact ih kw out

theorem head_or {α : Type} (copy : Bool) (f : Str) (kw out : List (Str × KW α)) (k : Str) :
    (filterHead copy f (kw, out)).1 = (filterHead copy f (kw, [])).1 ∧
    lookupS k (filterHead copy f (kw, out)).2 = (lookupS k (filterHead copy f (kw, [])).2).or (lookupS k out) := by
  unfold filterHead
  split
  · cases lookupS f kw with
    | none => simp [lookupS]
    | some v =>
      cases v with
      | val a => exact ⟨rfl, by rw [lookupS_setS, lookupS_setS_nil]; exact or_if none _ _ _⟩
      | sub d => exact ⟨rfl, update_or k _ out⟩
  · simp [lookupS]

theorem one_or {α : Type} (copy short keep : Bool) (f : Str) (kw out : List (Str × KW α)) (k : Str) :
    (filterOne copy short keep f (kw, out)).1 = (filterOne copy short keep f (kw, [])).1 ∧
    lookupS k (filterOne copy short keep f (kw, out)).2 = (lookupS k (filterOne copy short keep f (kw, [])).2).or (lookupS k out) := by
  rw [filterOne_eq, filterOne_eq]
  obtain ⟨h1, h2⟩ := head_or copy f kw out k
  rw [h1]
  generalize (filterHead copy f (kw, [])).1 = kw' at h2 ⊢
  obtain ⟨a1, a2⟩ := items_or copy keep (prefixOf short f) kw' kw' (filterHead copy f (kw, out)).2 k
  obtain ⟨b1, b2⟩ := items_or copy keep (prefixOf short f) kw' kw' (filterHead copy f (kw, [])).2 k
  refine ⟨by rw [a1, b1], ?_⟩
  rw [a2, b2, h2, Option.or_assoc]

theorem fold_or {α : Type} (copy short keep : Bool) (fs : List Str) (kw out : List (Str × KW α)) (k : Str) :
    (fs.foldl (fun st f => filterOne copy short keep f st) (kw, out)).1 = (fs.foldl (fun st f => filterOne copy short keep f st) (kw, [])).1 ∧
    lookupS k (fs.foldl (fun st f => filterOne copy short keep f st) (kw, out)).2 =
      (lookupS k (fs.foldl (fun st f => filterOne copy short keep f st) (kw, [])).2).or (lookupS k out) := by
  induction fs generalizing kw out with
  | nil => simp [lookupS]
  | cons f fs ih =>
    rw [List.foldl_cons, List.foldl_cons]
    obtain ⟨h1, h2⟩ := one_or copy short keep f kw out k
    have e1 : filterOne copy short keep f (kw, out) = ((filterOne copy short keep f (kw, [])).1, (filterOne copy short keep f (kw, out)).2) := by rw [← h1]
    rw [e1]
    have e2 : filterOne copy short keep f (kw, []) = ((filterOne copy short keep f (kw, [])).1, (filterOne copy short keep f (kw, [])).2) := rfl
    obtain ⟨a1, a2⟩ := ih (filterOne copy short keep f (kw, [])).1 (filterOne copy short keep f (kw, out)).2
    obtain ⟨b1, b2⟩ := ih (filterOne copy short keep f (kw, [])).1 (filterOne copy short keep f (kw, [])).2
    rw [e2]
    dsimp only at *
    refine ⟨by rw [a1, b1], ?_⟩
    rw [a2, b2, h2, Option.or_assoc]

theorem filter_plain {α : Type} (kw : List (Str × KW α)) (fs : List Str) (copy short keep : Bool) :
    dictFilter kw fs [] copy short keep [] = fs.foldl (fun st f => filterOne copy short keep f st) (kw, []) := by
  unfold dictFilter
  simp [updateS]

/-! ## The property -/

/-- **C239, several calls.** Filtering with some prefixes, then filtering what remains with others, leaves what a single call with all the prefixes leaves; the output of the single call is the outputs of the two calls together, the last one
having priority. -/
theorem C239_calls {α : Type} (kw : List (Str × KW α)) (fs gs : List Str) (short keep : Bool) (k : Str) :
    (dictFilter kw (fs ++ gs) [] false short keep []).1 = (dictFilter (dictFilter kw fs [] false short keep []).1 gs [] false short keep []).1 ∧
    lookupS k (dictFilter kw (fs ++ gs) [] false short keep []).2 =
      (lookupS k (dictFilter (dictFilter kw fs [] false short keep []).1 gs [] false short keep []).2).or (lookupS k (dictFilter kw fs [] false short keep []).2) := by
  simp only [filter_plain]
  rw [List.foldl_append]
  exact fold_or false short keep gs _ _ k

/-- **C239, with `copy`.** When the keywords are only copied, the second call also starts from all of them. -/
theorem C239_calls_copy {α : Type} (kw : List (Str × KW α)) (fs gs : List Str) (short keep : Bool) (k : Str) :
    lookupS k (dictFilter kw (fs ++ gs) [] true short keep []).2 =
      (lookupS k (dictFilter kw gs [] true short keep []).2).or (lookupS k (dictFilter kw fs [] true short keep []).2) := by
  have hc := C51_copy kw fs [] [] short keep
  simp only [filter_plain] at hc ⊢
  rw [List.foldl_append]
  have h := (fold_or true short keep gs (fs.foldl (fun st f => filterOne true short keep f st) (kw, [])).1 (fs.foldl (fun st f => filterOne true short keep f st) (kw, [])).2 k).2
  rw [hc] at h
  rw [← h]
  generalize List.foldl (fun st f => filterOne true short keep f st) (kw, []) fs = st at hc ⊢
  obtain ⟨s1, s2⟩ := st
  dsimp only at hc
  subst hc
  rfl

theorem one_nothing {α : Type} (short keep : Bool) (f : Str) (kw : List (Str × KW α)) (h : ∀ k, selectedBy short f k → lookupS k kw = none) (copy : Bool) :
    filterOne copy short keep f (kw, []) = (kw, []) := by
  have hh : filterHead copy f (kw, []) = (kw, []) := by
    unfold filterHead
    split
    case isTrue he =>
      have : lookupS f kw = none := h f (Or.inl ⟨rfl, by simpa [endsUnd] using he⟩)
      rw [this]
    case isFalse => rfl
  rw [filterOne_eq, hh]
  dsimp only
  have hk : ∀ p ∈ kw, ¬ (((prefixOf short f).isPrefixOf p.1 && decide (p.1 ≠ prefixOf short f)) = true) := by
    intro p hp hc
    have := h p.1 (Or.inr ((isPre_iff _ _).1 hc))
    have hm : p.1 ∈ kw.map (·.1) := List.mem_map_of_mem hp
    clear hh hc
    induction kw with
    | nil => cases hp
    | cons q kw ih =>
      obtain ⟨a, v⟩ := q
      simp only [lookupS] at this
      split at this
      · cases this
      · rename_i hne
        rcases List.mem_cons.1 hp with rfl | hp
        · exact hne rfl
        · exact ih (fun k hk => by
            have := h k hk
            simp only [lookupS] at this
            split at this
            · cases this
            · exact this) hp this (List.mem_map_of_mem hp)
  have : ∀ (items kw' : List (Str × KW α)), (∀ p ∈ items, ¬ (((prefixOf short f).isPrefixOf p.1 && decide (p.1 ≠ prefixOf short f)) = true)) →
      filterItems copy keep (prefixOf short f) items kw' [] = (kw', []) := by
    intro items
    induction items with
    | nil => intro kw' _; rfl
    | cons p items ih =>
      intro kw' hp
      obtain ⟨a, v⟩ := p
      simp only [filterItems]
      rw [if_neg (hp (a, v) List.mem_cons_self)]
      exact ih kw' fun q hq => hp q (List.mem_cons_of_mem _ hq)
  exact this kw kw hk

/-- **C239, the same call again.** After a call that takes keywords out, calling again with the same prefixes, or with some of them, gives nothing and leaves the keywords as they are. -/
theorem C239_again {α : Type} (kw : List (Str × KW α)) (fs gs : List Str) (hsub : ∀ g ∈ gs, g ∈ fs) (short keep copy keep' : Bool) :
    dictFilter (dictFilter kw fs [] false short keep []).1 gs [] copy short keep' [] = ((dictFilter kw fs [] false short keep []).1, []) := by
  have h : ∀ g ∈ gs, ∀ k, selectedBy short g k → lookupS k (dictFilter kw fs [] false short keep []).1 = none := by
    intro g hg k hk
    rw [C51_removed, if_pos ⟨g, hsub g hg, hk⟩]
  generalize (dictFilter kw fs [] false short keep []).1 = r at h
  rw [filter_plain]
  clear hsub
  induction gs with
  | nil => rfl
  | cons g gs ih =>
    rw [List.foldl_cons, one_nothing short keep' g r (h g List.mem_cons_self) copy]
    exact ih fun g' hg' => h g' (List.mem_cons_of_mem _ hg')

/-- keywords of two prefixes taken in one and in two calls -/
example :
    let kw : List (Str × KW Nat) := [("a_x".toList, .val 1), ("b_x".toList, .val 2), ("c".toList, .val 3), ("a_y".toList, .val 4)]
    let r1 := dictFilter kw ["a".toList] [] false false false []
    let r2 := dictFilter r1.1 ["b".toList] [] false false false []
    let r := dictFilter kw ["a".toList, "b".toList] [] false false false []
    r.1.map (·.1) = ["c".toList] ∧ r2.1.map (·.1) = ["c".toList] ∧ r1.2.map (·.1) = ["x".toList, "y".toList] ∧ r2.2.map (·.1) = ["x".toList] ∧
      r.2.map (·.1) = ["x".toList, "y".toList] ∧ (dictFilter r1.1 ["a".toList] [] false false false []).2.map (·.1) = [] := by
  decide +kernel

end Xoa
