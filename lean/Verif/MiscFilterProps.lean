import Verif.Misc
import Mathlib.Tactic.Tauto

/-!
# C51: dict_filter (xoa/misc.py:407-479)
-/

namespace Xoa

/-! ## Specification -/

/-- the prefix a filter stands for: the filter itself when it ends with `_` or when short
prefixes are allowed, else the filter followed by `_` -/
def prefixOf (short : Bool) (f : Str) : Str :=
  if short = true ∨ f.getLast? = some '_' then f else f ++ ['_']

/-- keyword `k` is selected by filter `f`: it is the (non underscored) filter itself, or the
prefix followed by at least one character -/
def selectedBy (short : Bool) (f k : Str) : Prop :=
  (k = f ∧ f.getLast? ≠ some '_') ∨ ∃ x, x ≠ [] ∧ k = prefixOf short f ++ x

/-! ## lookups -/

theorem lookupS_setS {α : Type} (k k' : Str) (v : α) (d : List (Str × α)) :
    lookupS k (setS k' v d) = if k = k' then some v else lookupS k d := by
  induction d with
  | nil => simp [setS, lookupS]
  | cons p d ih =>
    obtain ⟨a, b⟩ := p
    simp only [setS]
    by_cases h : k' = a
    · subst h
      rw [if_pos rfl]
      by_cases hk : k = k'
      · simp [lookupS, hk]
      · simp [lookupS, hk]
    · rw [if_neg h]
      simp only [lookupS, ih]
      by_cases hk : k = a
      · have : k ≠ k' := fun e => h (e ▸ hk)
        rw [if_pos hk, if_neg this, if_pos hk]
      · rw [if_neg hk, if_neg hk]

theorem lookupS_filter {α : Type} (k : Str) (q : Str → Bool) (d : List (Str × α)) :
    lookupS k (d.filter (fun p => q p.1)) = if q k = true then lookupS k d else none := by
  induction d with
  | nil => simp [lookupS]
  | cons p d ih =>
    obtain ⟨a, b⟩ := p
    by_cases hq : q a = true
    · rw [List.filter_cons_of_pos (by simpa using hq)]
      simp only [lookupS, ih]
      by_cases hk : k = a
      · subst hk; simp [hq]
      · simp [hk]
    · rw [List.filter_cons_of_neg (by simpa using hq), ih]
      by_cases hk : k = a
      · subst hk; simp [hq]
      · simp [lookupS, hk]

theorem lookupS_popS {α : Type} (k k' : Str) (d : List (Str × α)) :
    lookupS k (popS k' d) = if k = k' then none else lookupS k d := by
  unfold popS
  rw [lookupS_filter k (fun s => decide (s ≠ k')) d]
  by_cases h : k = k' <;> simp [h]

theorem lookupS_updateS {α : Type} (k : Str) (e d : List (Str × α)) (hn : (e.map (·.1)).Nodup) :
    lookupS k (updateS d e) = (lookupS k e).or (lookupS k d) := by
  unfold updateS
  induction e generalizing d with
  | nil => simp [lookupS]
  | cons p e ih =>
    obtain ⟨a, b⟩ := p
    simp only [List.map_cons, List.nodup_cons] at hn
    rw [List.foldl_cons, ih _ hn.2, lookupS_setS]
    simp only [lookupS]
    by_cases hk : k = a
    · subst hk
      have : lookupS k e = none := by
        clear ih
        induction e with
        | nil => rfl
        | cons q e ih2 =>
          obtain ⟨a, c⟩ := q
          simp only [List.map_cons, List.nodup_cons, List.mem_cons, not_or] at hn
          simp only [lookupS]
          rw [if_neg hn.1.1, ih2 ⟨hn.1.2, hn.2.2⟩]
      simp [this]
    · simp [hk]

theorem lookupS_none_of_notMem {α : Type} (k : Str) (d : List (Str × α)) (h : k ∉ d.map (·.1)) : lookupS k d = none := by
  induction d with
  | nil => rfl
  | cons p d ih =>
    obtain ⟨a, b⟩ := p
    simp only [List.map_cons, List.mem_cons, not_or] at h
    simp only [lookupS]; rw [if_neg h.1, ih h.2]

theorem mem_of_lookupS {α : Type} (k : Str) (v : α) (d : List (Str × α)) (h : lookupS k d = some v) : (k, v) ∈ d := by
  induction d with
  | nil => simp [lookupS] at h
  | cons p d ih =>
    obtain ⟨a, b⟩ := p
    simp only [lookupS] at h
    split at h
    · next e => subst e; rw [Option.some.inj h]; simp
    · exact List.mem_cons_of_mem _ (ih h)

/-! ## the prefix loop -/

/-- strict prefix test of xoa/misc.py:466 -/
theorem isPre_iff (pre att : Str) : (pre.isPrefixOf att && decide (att ≠ pre)) = true ↔ ∃ x, x ≠ [] ∧ att = pre ++ x := by
  simp only [Bool.and_eq_true, decide_eq_true_eq, List.isPrefixOf_iff_prefix]
  constructor
  · rintro ⟨⟨x, hx⟩, hne⟩
    refine ⟨x, ?_, hx.symm⟩
    rintro rfl
    apply hne; rw [← hx]; simp
  · rintro ⟨x, hx, rfl⟩
    refine ⟨⟨x, rfl⟩, ?_⟩
    intro h
    exact hx (by simpa using h)

open Classical in
theorem filterItems_kw {α : Type} (keep : Bool) (pre : Str) (items kw out : List (Str × KW α)) (k : Str) :
    lookupS k (filterItems false keep pre items kw out).1 =
      if (k ∈ items.map (·.1) ∧ ∃ x, x ≠ [] ∧ k = pre ++ x) then none else lookupS k kw := by
  induction items generalizing kw out with
  | nil => simp [filterItems]
  | cons p items ih =>
    obtain ⟨a, v⟩ := p
    simp only [filterItems]
    by_cases hp : (pre.isPrefixOf a && decide (a ≠ pre)) = true
    · rw [if_pos hp, ih]
      have hp' := (isPre_iff pre a).1 hp
      simp only [Bool.false_eq_true, if_false, lookupS_popS, List.map_cons, List.mem_cons]
      by_cases hk : k = a
      · subst hk
        simp [hp']
      · simp [hk]
    · rw [if_neg hp, ih]
      have hp' := mt (isPre_iff pre a).2 hp
      simp only [List.map_cons, List.mem_cons]
      by_cases hk : k = a
      · subst hk
        simp [hp']
      · simp [hk]

theorem filterItems_copy {α : Type} (keep : Bool) (pre : Str) (items kw out : List (Str × KW α)) :
    (filterItems true keep pre items kw out).1 = kw := by
  induction items generalizing kw out with
  | nil => simp [filterItems]
  | cons p items ih =>
    obtain ⟨a, v⟩ := p
    simp only [filterItems]
    split
    · rw [ih]; simp
    · rw [ih]

open Classical in
/-- the collected keywords under their full names -/
theorem filterItems_out_keep {α : Type} (copy : Bool) (pre : Str) (items kw out : List (Str × KW α))
    (hn : (items.map (·.1)).Nodup) (k : Str) :
    lookupS k (filterItems copy true pre items kw out).2 =
      if (k ∈ items.map (·.1) ∧ ∃ x, x ≠ [] ∧ k = pre ++ x) then lookupS k items else lookupS k out := by
  induction items generalizing kw out with
  | nil => simp [filterItems]
  | cons p items ih =>
    obtain ⟨a, v⟩ := p
    simp only [List.map_cons, List.nodup_cons] at hn
    simp only [filterItems]
    by_cases hp : (pre.isPrefixOf a && decide (a ≠ pre)) = true
    · rw [if_pos hp, ih _ _ hn.2]
      have hp' := (isPre_iff pre a).1 hp
      simp only [if_true, lookupS_setS, List.map_cons, List.mem_cons, lookupS]
      by_cases hk : k = a
      · subst hk
        simp [hp', hn.1]
      · simp [hk]
    · rw [if_neg hp, ih _ _ hn.2]
      have hp' := mt (isPre_iff pre a).2 hp
      simp only [List.map_cons, List.mem_cons, lookupS]
      by_cases hk : k = a
      · subst hk
        simp [hp']
      · simp [hk]

/-- the collected keywords under their short names -/
theorem filterItems_out_short {α : Type} (copy : Bool) (pre : Str) (items kw out : List (Str × KW α))
    (hn : (items.map (·.1)).Nodup) (x : Str) :
    lookupS x (filterItems copy false pre items kw out).2 =
      if (x ≠ [] ∧ pre ++ x ∈ items.map (·.1)) then lookupS (pre ++ x) items else lookupS x out := by
  induction items generalizing kw out with
  | nil => simp [filterItems]
  | cons p items ih =>
    obtain ⟨a, v⟩ := p
    simp only [List.map_cons, List.nodup_cons] at hn
    simp only [filterItems]
    by_cases hp : (pre.isPrefixOf a && decide (a ≠ pre)) = true
    · rw [if_pos hp, ih _ _ hn.2]
      obtain ⟨y, hy, rfl⟩ := (isPre_iff pre a).1 hp
      have hd : (pre ++ y).drop pre.length = y := by simp
      simp only [Bool.false_eq_true, if_false, lookupS_setS, List.map_cons, List.mem_cons, lookupS, hd,
        List.append_cancel_left_eq]
      by_cases hk : x = y
      · subst hk
        simp [hy, hn.1]
      · rw [if_neg hk, if_neg hk]
        exact if_congr (by tauto) rfl rfl
    · rw [if_neg hp, ih _ _ hn.2]
      have hp' := mt (isPre_iff pre a).2 hp
      simp only [List.map_cons, List.mem_cons, lookupS]
      by_cases hk : pre ++ x = a
      · by_cases hx : x = []
        · simp [hx]
        · exact absurd ⟨x, hx, hk.symm⟩ hp'
      · rw [if_neg hk]
        exact if_congr (by tauto) rfl rfl

theorem popS_nodup {α : Type} (k : Str) (d : List (Str × α)) (h : (d.map (·.1)).Nodup) :
    ((popS k d).map (·.1)).Nodup := by
  unfold popS
  exact h.sublist (List.Sublist.map _ List.filter_sublist)

theorem filterItems_nodup {α : Type} (copy keep : Bool) (pre : Str) (items kw out : List (Str × KW α))
    (h : (kw.map (·.1)).Nodup) : ((filterItems copy keep pre items kw out).1.map (·.1)).Nodup := by
  induction items generalizing kw out with
  | nil => simpa [filterItems] using h
  | cons p items ih =>
    obtain ⟨a, v⟩ := p
    simp only [filterItems]
    split
    · apply ih
      cases copy
      · simpa using popS_nodup a kw h
      · simpa using h
    · exact ih _ _ h

theorem mem_keys_of_lookupS {α : Type} (k : Str) (d : List (Str × α)) (h : lookupS k d ≠ none) : k ∈ d.map (·.1) :=
  Classical.byContradiction fun hc => h (lookupS_none_of_notMem k d hc)

theorem endsUnd_iff (f : Str) : endsUnd f = true ↔ f.getLast? = some '_' := by simp [endsUnd]

theorem prefix_model (short : Bool) (f : Str) :
    (if (!short && !endsUnd f) = true then f ++ ['_'] else f) = prefixOf short f := by
  unfold prefixOf
  by_cases he : f.getLast? = some '_'
  · simp [endsUnd, he]
  · cases short <;> simp [endsUnd, he]

/-! ## one filter -/

/-- the state after the first part of a filter (xoa/misc.py:458-462) -/
def filterHead {α : Type} (copy : Bool) (f : Str)
    (st : List (Str × KW α) × List (Str × KW α)) : List (Str × KW α) × List (Str × KW α) :=
  if !endsUnd f then
    match lookupS f st.1 with
    | some (.sub d) => (if copy then st.1 else popS f st.1, updateS st.2 (d.map (fun p => (p.1, KW.val p.2))))
    | some (.val a) => (if copy then st.1 else popS f st.1, setS f (.val a) st.2)
    | Option.none => st
  else st

theorem filterOne_eq {α : Type} (copy short keep : Bool) (f : Str) (st : List (Str × KW α) × List (Str × KW α)) :
    filterOne copy short keep f st =
      filterItems copy keep (prefixOf short f) (filterHead copy f st).1 (filterHead copy f st).1 (filterHead copy f st).2 := by
  obtain ⟨kw, out⟩ := st
  unfold filterOne
  simp only [prefix_model]
  rfl

theorem filterHead_kw {α : Type} (f : Str) (st : List (Str × KW α) × List (Str × KW α)) (k : Str) :
    lookupS k (filterHead false f st).1 = if (k = f ∧ f.getLast? ≠ some '_') then none else lookupS k st.1 := by
  unfold filterHead
  by_cases he : f.getLast? = some '_'
  · simp [endsUnd, he]
  · simp only [endsUnd, he, decide_false, Bool.not_false, if_true, ne_eq, not_false_eq_true, and_true]
    cases hl : lookupS f st.1 with
    | none =>
      by_cases hk : k = f
      · subst hk; simp [hl]
      · simp [hk]
    | some v => cases v <;> simp [lookupS_popS]

theorem filterHead_copy {α : Type} (f : Str) (st : List (Str × KW α) × List (Str × KW α)) :
    (filterHead true f st).1 = st.1 := by
  unfold filterHead
  cases lookupS f st.1 with
  | none => simp
  | some v => cases v <;> simp <;> split <;> rfl

theorem filterHead_nodup {α : Type} (copy : Bool) (f : Str) (st : List (Str × KW α) × List (Str × KW α))
    (h : (st.1.map (·.1)).Nodup) : ((filterHead copy f st).1.map (·.1)).Nodup := by
  unfold filterHead
  split
  · cases lookupS f st.1 with
    | none => exact h
    | some v =>
      cases v <;> cases copy <;> first | exact h | exact popS_nodup _ _ h
  · exact h

theorem filterOne_nodup {α : Type} (copy short keep : Bool) (f : Str) (st : List (Str × KW α) × List (Str × KW α))
    (h : (st.1.map (·.1)).Nodup) : ((filterOne copy short keep f st).1.map (·.1)).Nodup := by
  rw [filterOne_eq]; exact filterItems_nodup _ _ _ _ _ _ (filterHead_nodup _ _ _ h)

open Classical in
theorem filterOne_kw {α : Type} (short keep : Bool) (f : Str) (st : List (Str × KW α) × List (Str × KW α)) (k : Str) :
    lookupS k (filterOne false short keep f st).1 = if selectedBy short f k then none else lookupS k st.1 := by
  rw [filterOne_eq, filterItems_kw, filterHead_kw]
  unfold selectedBy
  by_cases h1 : k = f ∧ f.getLast? ≠ some '_'
  · simp [h1]
  · by_cases h2 : ∃ x, x ≠ [] ∧ k = prefixOf short f ++ x
    · simp only [h1, h2, if_false, false_or, if_true, and_true]
      by_cases hm : k ∈ (filterHead false f st).1.map (·.1)
      · rw [if_pos hm]
      · rw [if_neg hm]
        have := lookupS_none_of_notMem k _ hm
        rw [filterHead_kw, if_neg h1] at this
        exact this
    · simp only [h1, h2, and_false, if_false, false_or]

theorem filterOne_copy {α : Type} (short keep : Bool) (f : Str) (st : List (Str × KW α) × List (Str × KW α)) :
    (filterOne true short keep f st).1 = st.1 := by
  rw [filterOne_eq, filterItems_copy, filterHead_copy]

/-! ## Theorems -/

open Classical in
/-- **C51** (removal): with `copy=False` and any list of filters, a keyword is removed from
`kwargs` exactly when one of the filters selects it; the others keep their value. -/
theorem C51_removed {α : Type} (kw : List (Str × KW α)) (filters : List Str) (defaults kwadd : List (Str × KW α))
    (short keep : Bool) (k : Str) :
    lookupS k (dictFilter kw filters defaults false short keep kwadd).1 =
      if (∃ f ∈ filters, selectedBy short f k) then none else lookupS k kw := by
  unfold dictFilter
  simp only
  generalize hst : (kw, ([] : List (Str × KW α))) = st
  have hkw : kw = st.1 := by rw [← hst]
  rw [hkw]
  clear hst hkw
  induction filters generalizing st with
  | nil => simp
  | cons f fs ih =>
    rw [List.foldl_cons, ih, filterOne_kw]
    by_cases h1 : selectedBy short f k <;> by_cases h2 : ∃ g ∈ fs, selectedBy short g k <;>
      simp [h1, h2]

/-- **C51** (copy): with `copy=True` the input keywords are left untouched. -/
theorem C51_copy {α : Type} (kw : List (Str × KW α)) (filters : List Str) (defaults kwadd : List (Str × KW α))
    (short keep : Bool) :
    (dictFilter kw filters defaults true short keep kwadd).1 = kw := by
  unfold dictFilter
  simp only
  generalize hst : (kw, ([] : List (Str × KW α))) = st
  have hkw : kw = st.1 := by rw [← hst]
  rw [hkw]
  clear hst hkw
  induction filters generalizing st with
  | nil => simp
  | cons f fs ih => rw [List.foldl_cons, ih, filterOne_copy]

theorem output_short_aux {α : Type} (kw : List (Str × KW α)) (hn : (kw.map (·.1)).Nodup)
    (hd : ∀ k d, (k, KW.sub d) ∈ kw → (d.map (·.1)).Nodup) (f : Str) (copy short : Bool) (x : Str) :
    lookupS x (dictFilter kw [f] [] copy short false []).2 =
      ((if x = [] then none else if copy = false ∧ f.getLast? ≠ some '_' ∧ prefixOf short f ++ x = f then none
          else lookupS (prefixOf short f ++ x) kw)).or
        (if f.getLast? = some '_' then none
         else match lookupS f kw with
          | none => none
          | some (.val a) => if x = f then some (.val a) else none
          | some (.sub d) => (lookupS x d).map KW.val) := by
  unfold dictFilter
  simp only [List.foldl_cons, List.foldl_nil, updateS]
  rw [filterOne_eq, filterItems_out_short _ _ _ _ _ (filterHead_nodup copy f (kw, []) hn)]
  have hlook : lookupS (prefixOf short f ++ x) (filterHead copy f (kw, [])).1 =
      if copy = false ∧ f.getLast? ≠ some '_' ∧ prefixOf short f ++ x = f then none
      else lookupS (prefixOf short f ++ x) kw := by
    cases copy
    · rw [filterHead_kw]
      by_cases h1 : prefixOf short f ++ x = f <;> by_cases h2 : f.getLast? = some '_' <;> simp [h1, h2]
    · rw [filterHead_copy]; simp
  rw [← hlook]
  have hout : lookupS x (filterHead copy f (kw, [])).2 =
      (if f.getLast? = some '_' then none
         else match lookupS f kw with
          | none => none
          | some (.val a) => if x = f then some (.val a) else none
          | some (.sub d) => (lookupS x d).map KW.val) := by
    unfold filterHead
    by_cases he : f.getLast? = some '_'
    · simp [endsUnd, he, lookupS]
    · simp only [endsUnd, he, decide_false, Bool.not_false, if_true, if_false]
      cases hl : lookupS f kw with
      | none => simp [lookupS]
      | some v =>
        cases v with
        | val a => simp [lookupS_setS, lookupS]
        | sub d =>
          have := hd f d (mem_of_lookupS f _ kw hl)
          simp only
          rw [lookupS_updateS x _ _ (by simpa [List.map_map, Function.comp_def] using this)]
          simp only [lookupS, Option.or_none]
          clear hl this hlook
          induction d with
          | nil => rfl
          | cons p d ih =>
            simp only [List.map_cons, lookupS]
            split
            · simp
            · exact ih
  rw [hout]
  by_cases hx : x = []
  · simp [hx]
  · simp only [ne_eq, hx, not_false_eq_true, true_and, if_false]
    by_cases hm : prefixOf short f ++ x ∈ (filterHead copy f (kw, [])).1.map (·.1)
    · rw [if_pos hm]
      cases hl : lookupS (prefixOf short f ++ x) (filterHead copy f (kw, [])).1 with
      | some v => simp
      | none =>
        exfalso
        generalize (filterHead copy f (kw, [])).1 = dd at hm hl
        induction dd with
        | nil => simp at hm
        | cons p dd ih =>
          obtain ⟨a, b⟩ := p
          simp only [lookupS] at hl
          split at hl
          · simp at hl
          · next hne =>
            simp only [List.map_cons, List.mem_cons] at hm
            rcases hm with h | h
            · exact hne h
            · exact ih h hl
    · rw [if_neg hm, lookupS_none_of_notMem _ _ hm]; simp

/-- **C51** (short names): with one filter, the output holds under the short name `x`
exactly the keyword `prefix ++ x`; when there is none and the filter itself is a keyword,
its value is given under its own name, or is expanded if it is a dictionary. -/
theorem C51_output_short {α : Type} (kw : List (Str × KW α)) (hn : (kw.map (·.1)).Nodup)
    (hd : ∀ k d, (k, KW.sub d) ∈ kw → (d.map (·.1)).Nodup) (f : Str) (copy short : Bool) (x : Str) :
    lookupS x (dictFilter kw [f] [] copy short false []).2 =
      (if x = [] then none else lookupS (prefixOf short f ++ x) kw).or
        (if f.getLast? = some '_' then none
         else match lookupS f kw with
          | none => none
          | some (.val a) => if x = f then some (.val a) else none
          | some (.sub d) => (lookupS x d).map KW.val) := by
  refine (output_short_aux kw hn hd f copy short x).trans ?_
  by_cases hx : x = []
  · rw [if_pos hx, if_pos hx]
  · have hne : prefixOf short f ++ x ≠ f := by
      intro h
      have h1 := congrArg List.length h
      have h2 : 0 < x.length := List.length_pos_iff.2 hx
      unfold prefixOf at h1
      split at h1 <;> simp only [List.length_append] at h1 <;> omega
    rw [if_neg hx, if_neg hx, if_neg (fun h => hne h.2.2)]

theorem lookupS_some_of_mem {α : Type} (k : Str) (d : List (Str × α)) (h : k ∈ d.map (·.1)) : lookupS k d ≠ none := by
  induction d with
  | nil => simp at h
  | cons p d ih =>
    obtain ⟨a, b⟩ := p
    simp only [lookupS]
    split
    · simp
    · next hne =>
      simp only [List.map_cons, List.mem_cons] at h
      exact ih (h.resolve_left hne)

/-- **C51** (partition): with full names, `copy=False`, no defaults and plain values, every
keyword is afterwards in exactly one of `kwargs` and the output, with its value, and nothing
else is: nothing is lost or duplicated, for any list of filters. -/
theorem C51_partition {α : Type} (kw : List (Str × KW α)) (hn : (kw.map (·.1)).Nodup)
    (hv : ∀ k v, (k, v) ∈ kw → ∃ a, v = KW.val a) (filters : List Str) (short : Bool) (k : Str) :
    let r := dictFilter kw filters [] false short true []
    (lookupS k r.1).or (lookupS k r.2) = lookupS k kw ∧ (lookupS k r.1 = none ∨ lookupS k r.2 = none) := by
  -- invariant over the filters
  have step : ∀ (f : Str) (st : List (Str × KW α) × List (Str × KW α)), (st.1.map (·.1)).Nodup →
      (∀ k v, lookupS k st.1 = some v → ∃ a, v = KW.val a) →
      (∀ k, lookupS k st.1 = none ∨ lookupS k st.2 = none) →
      let r := filterOne false short true f st
      ((r.1.map (·.1)).Nodup ∧ (∀ k v, lookupS k r.1 = some v → ∃ a, v = KW.val a) ∧
        (∀ k, lookupS k r.1 = none ∨ lookupS k r.2 = none) ∧
        ∀ k, (lookupS k r.1).or (lookupS k r.2) = (lookupS k st.1).or (lookupS k st.2)) := by
    intro f st hnd hval hdis
    have hhead : ∀ k, lookupS k (filterHead false f st).2 =
        if (k = f ∧ f.getLast? ≠ some '_') then (lookupS k st.1).or (lookupS k st.2) else lookupS k st.2 := by
      intro k
      unfold filterHead
      by_cases he : f.getLast? = some '_'
      · simp [endsUnd, he]
      · simp only [endsUnd, he, decide_false, Bool.not_false, if_true, ne_eq, not_false_eq_true, and_true]
        cases hl : lookupS f st.1 with
        | none =>
          by_cases hk : k = f
          · subst hk; simp [hl]
          · simp [hk]
        | some v =>
          obtain ⟨a, rfl⟩ := hval f v hl
          simp only [lookupS_setS]
          by_cases hk : k = f
          · subst hk; simp [hl]
          · simp [hk]
    have hkw := fun k => filterHead_kw f st k
    refine ⟨filterOne_nodup _ _ _ _ _ hnd, ?_, ?_, ?_⟩
    · intro k v h
      rw [filterOne_kw] at h
      split at h
      · simp at h
      · exact hval k v h
    · intro k
      rw [filterOne_eq, filterItems_kw, filterItems_out_keep _ _ _ _ _ (filterHead_nodup _ _ _ hnd), hkw, hhead]
      split
      · exact Or.inl rfl
      · split
        · exact Or.inl rfl
        · exact hdis k
    · intro k
      rw [filterOne_eq, filterItems_kw, filterItems_out_keep _ _ _ _ _ (filterHead_nodup _ _ _ hnd), hkw, hhead]
      split
      · next h =>
        by_cases hf : k = f ∧ f.getLast? ≠ some '_'
        · exfalso
          have := lookupS_some_of_mem _ _ h.1
          rw [hkw, if_pos hf] at this
          exact this rfl
        · rw [if_neg hf]
          rcases hdis k with h0 | h0
          · exfalso
            have := lookupS_some_of_mem _ _ h.1
            rw [hkw, if_neg hf] at this
            exact this h0
          · simp [h0]
      · split
        · simp
        · rfl
  have inv : ∀ (fs : List Str) (st : List (Str × KW α) × List (Str × KW α)), (st.1.map (·.1)).Nodup →
      (∀ k v, lookupS k st.1 = some v → ∃ a, v = KW.val a) →
      (∀ k, lookupS k st.1 = none ∨ lookupS k st.2 = none) →
      let r := fs.foldl (fun st f => filterOne false short true f st) st
      ((lookupS k r.1).or (lookupS k r.2) = (lookupS k st.1).or (lookupS k st.2) ∧
        (lookupS k r.1 = none ∨ lookupS k r.2 = none)) := by
    intro fs
    induction fs with
    | nil => intro st _ _ hdis; exact ⟨rfl, hdis k⟩
    | cons f fs ih =>
      intro st h1 h2 h3
      obtain ⟨g1, g2, g3, g4⟩ := step f st h1 h2 h3
      have := ih (filterOne false short true f st) g1 g2 g3
      simp only [List.foldl_cons]
      exact ⟨this.1.trans (g4 k), this.2⟩
  have := inv filters (kw, []) hn (fun k v h => hv k v (mem_of_lookupS k v kw h)) (fun k => Or.inr rfl)
  simpa [dictFilter, updateS, lookupS] using this

/-- **C51** (added and default items): explicit extra keywords have priority over the
filtered ones, which have priority over the defaults. -/
theorem C51_defaults {α : Type} (kw : List (Str × KW α)) (filters : List Str) (defaults kwadd : List (Str × KW α))
    (hd : (defaults.map (·.1)).Nodup) (ha : (kwadd.map (·.1)).Nodup) (copy short keep : Bool) (x : Str) :
    lookupS x (dictFilter kw filters defaults copy short keep kwadd).2 =
      ((lookupS x kwadd).or (lookupS x (dictFilter kw filters [] copy short keep []).2)).or (lookupS x defaults) := by
  have key : ∀ (ds d : List (Str × KW α)), (ds.map (·.1)).Nodup →
      lookupS x (ds.foldl (fun d p => match lookupS p.1 d with
        | some _ => d
        | Option.none => setS p.1 p.2 d) d) = (lookupS x d).or (lookupS x ds) := by
    intro ds
    induction ds with
    | nil => intro d _; simp [lookupS]
    | cons p ds ih =>
      intro d hnd
      obtain ⟨a, b⟩ := p
      simp only [List.map_cons, List.nodup_cons] at hnd
      rw [List.foldl_cons, ih _ hnd.2]
      simp only [lookupS]
      by_cases hx : x = a
      · subst hx
        cases hl : lookupS x d with
        | some w => simp [hl]
        | none => simp [lookupS_setS]
      · cases hl : lookupS a d with
        | some w => simp [hx]
        | none => simp [lookupS_setS, hx]
  unfold dictFilter
  simp only
  refine (key _ _ hd).trans ?_
  rw [lookupS_updateS _ _ _ ha]
  simp [updateS]

/-- **C96** (no loss): with one filter, each keyword selected by its prefix is given under its short name, and the filter itself under its own
name unless this is also a short name. -/
theorem C96_one_filter_partial {α : Type} (kw : List (Str × KW α)) (hn : (kw.map (·.1)).Nodup)
    (hd : ∀ k d, (k, KW.sub d) ∈ kw → (d.map (·.1)).Nodup) (f : Str) (copy short : Bool) :
    (∀ x v, x ≠ [] → lookupS (prefixOf short f ++ x) kw = some v → lookupS x (dictFilter kw [f] [] copy short false []).2 = some v) ∧
    (∀ a, f ≠ [] → f.getLast? ≠ some '_' → lookupS f kw = some (.val a) → lookupS (prefixOf short f ++ f) kw = none →
      lookupS f (dictFilter kw [f] [] copy short false []).2 = some (.val a)) := by
  constructor
  · intro x v hx hv
    rw [C51_output_short kw hn hd, if_neg hx, hv]
    rfl
  · intro a hne hu ha h0
    rw [C51_output_short kw hn hd, if_neg hne, h0, if_neg hu, ha]
    simp

/-- **C96 is violated** in all the cases where a keyword `f_f` exists beside `f`: its value replaces the one of `f`, which is removed from
the keywords and given nowhere. -/
theorem C96_collision_violated {α : Type} (kw : List (Str × KW α)) (hn : (kw.map (·.1)).Nodup)
    (hd : ∀ k d, (k, KW.sub d) ∈ kw → (d.map (·.1)).Nodup) (f : Str) (short : Bool) (a b : KW α) (hf : f ≠ [])
    (ha : lookupS f kw = some a) (hb : lookupS (prefixOf short f ++ f) kw = some b) (hu : f.getLast? ≠ some '_') :
    lookupS f (dictFilter kw [f] [] false short false []).2 = some b ∧ lookupS f (dictFilter kw [f] [] false short false []).1 = none := by
  constructor
  · exact (C96_one_filter_partial kw hn hd f false short).1 f b hf hb
  · rw [C51_removed, if_pos]
    exact ⟨f, by simp, Or.inl ⟨rfl, hu⟩⟩

/-- **C96 is violated** with short names: `dict_filter({'a': 1, 'a_a': 2}, 'a')` removes both
keywords but returns only the second one, the first value is lost. -/
theorem C96_short_name_collision_violated :
    let kw : List (Str × KW Nat) := [("a".toList, .val 1), ("a_a".toList, .val 2)]
    let r := dictFilter kw ["a".toList] [] false false false []
    r = ([], [("a".toList, .val 2)]) := by
  rfl

/-- an instance of the hypotheses: the example of the docstring -/
def exKw : List (Str × KW Nat) :=
  [("basemap".toList, .val 0), ("basemap_fill".toList, .val 1), ("quiet".toList, .val 2), ("basemap_plot".toList, .val 3)]

example : (exKw.map (·.1)).Nodup := by decide
example : ∀ k v, (k, v) ∈ exKw → ∃ a, v = KW.val a := by
  intro k v h
  simp only [exKw, List.mem_cons, Prod.mk.injEq, List.not_mem_nil, or_false] at h
  rcases h with h | h | h | h <;> exact ⟨_, h.2⟩
example : dictFilter exKw ["basemap".toList] [] false false false [] =
    ([("quiet".toList, .val 2)], [("basemap".toList, .val 0), ("fill".toList, .val 1), ("plot".toList, .val 3)]) := rfl
example : selectedBy false "basemap".toList "basemap_plot".toList :=
  Or.inr ⟨"plot".toList, by decide, by decide⟩

end Xoa
