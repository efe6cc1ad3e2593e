import Verif.CfgmProps

/-!
# C57: ConfigManager.patch
-/

namespace Xoa

variable {V : Type}

/-! ## Specification -/

/-- what is at a path: nothing, a scalar (`false`) or a section (`true`) -/
def kindAt (r : List Str) (t : CT V) : Option Bool :=
  match getT r t with
  | none => none
  | some (.val _) => some false
  | some (.sec _) => some true

/-- no path is a scalar on one side and a section on the other side -/
def Compatible (c p : List (Str × CT V)) : Prop :=
  ∀ r b b', kindAt r (.sec c) = some b → kindAt r (.sec p) = some b' → b = b'

/-- laws of Python conversions: `type(v)(v) == v`, and `t(v)` has type `t` -/
structure Typing.Lawful (T : Typing V) : Prop where
  cast_self : ∀ v, T.cast (T.ty v) v = some v
  cast_ty : ∀ t v w, T.cast t v = some w → T.ty w = t

/-- the names of sections that `_parent_list_` leaves as they are -/
def cleanPath (path : List Str) : Prop := path.map stripU = path

/-! ## getT -/

theorem getT_append (r s : List Str) (t : CT V) : getT (r ++ s) t = (getT r t).bind (getT s) := by
  induction r generalizing t with
  | nil => simp [getT]
  | cons k r ih =>
    cases t with
    | val v => simp [getT]
    | sec l =>
      simp only [List.cons_append, getT]
      cases lookupS k l with
      | none => rfl
      | some t' => simp [ih]

theorem leafAt_eq_some (r : List Str) (t : CT V) (v : V) : leafAt r t = some v ↔ getT r t = some (.val v) := by
  unfold leafAt
  split
  · next h => simp [h]
  · next h =>
    constructor
    · intro h'; cases h'
    · intro h'; exact absurd h' (h v)

theorem leafAt_none_iff (r : List Str) (t : CT V) : leafAt r t = none ↔ kindAt r t ≠ some false := by
  unfold leafAt kindAt
  cases getT r t with
  | none => simp
  | some x => cases x <;> simp

theorem kindAt_leaf (r : List Str) (t : CT V) (v : V) (h : leafAt r t = some v) : kindAt r t = some false := by
  unfold kindAt; rw [(leafAt_eq_some r t v).1 h]

/-- strictly above something there is a section -/
theorem kindAt_prefix (r s : List Str) (t : CT V) (hs : s ≠ []) (h : getT (r ++ s) t ≠ none) : kindAt r t = some true := by
  rw [getT_append] at h
  unfold kindAt
  cases hr : getT r t with
  | none => rw [hr] at h; exact absurd rfl h
  | some x =>
    cases x with
    | sec l => rfl
    | val v =>
      rw [hr] at h
      cases s with
      | nil => exact absurd rfl hs
      | cons k s => exact absurd rfl h

/-- strictly below something that is not a section there is nothing -/
theorem getT_below (r s : List Str) (t : CT V) (hs : s ≠ []) (h : kindAt r t ≠ some true) : getT (r ++ s) t = none := by
  cases hg : getT (r ++ s) t with
  | none => rfl
  | some x => exact absurd (kindAt_prefix r s t hs (by rw [hg]; simp)) h

/-! ## setAt -/

theorem getT_cons_sub (p : Str) (q : List Str) (l : List (Str × CT V)) (hq : q ≠ []) :
    getT q (.sec (subItems p l)) = getT (p :: q) (.sec l) := by
  simp only [getT, subItems]
  cases q with
  | nil => exact absurd rfl hq
  | cons a q =>
    cases lookupS p l with
    | none => simp [getT, lookupS]
    | some t => cases t <;> simp [getT, lookupS]

theorem getT_setAt_same (path : List Str) (k : Str) (t : CT V) (l : List (Str × CT V)) (s : List Str) :
    getT (path ++ k :: s) (.sec (setAt path k t l)) = getT s t := by
  induction path generalizing l with
  | nil => simp [setAt, getT, lookupS_setS]
  | cons p path ih => simp [setAt, getT, lookupS_setS, ih]

theorem getT_setAt_prefix (path : List Str) (k : Str) (t : CT V) (l : List (Str × CT V)) (r : List Str) (h : r <+: path) :
    kindAt r (.sec (setAt path k t l)) = some true := by
  obtain ⟨s, rfl⟩ := h
  have := kindAt_prefix r (s ++ [k]) (.sec (setAt (r ++ s) k t l)) (by simp) (by
    have := getT_setAt_same (r ++ s) k t l []
    rw [List.append_assoc] at this
    rw [this]; simp [getT])
  exact this

theorem getT_setAt_other (path : List Str) (k : Str) (t : CT V) (l : List (Str × CT V)) (r : List Str)
    (h1 : ¬ r <+: path) (h2 : ¬ path ++ [k] <+: r) :
    getT r (.sec (setAt path k t l)) = getT r (.sec l) := by
  induction path generalizing l r with
  | nil =>
    cases r with
    | nil => exact absurd (List.prefix_refl _) h1
    | cons a q =>
      simp only [setAt, getT, lookupS_setS]
      by_cases ha : a = k
      · subst ha
        exact absurd ⟨q, rfl⟩ h2
      · simp [ha]
  | cons p path ih =>
    cases r with
    | nil => exact absurd (List.nil_prefix) h1
    | cons a q =>
      by_cases ha : a = p
      · subst ha
        have hq : q ≠ [] := by
          rintro rfl
          exact h1 (by simp)
        have := ih (subItems a l) q (fun h => h1 (by simpa using h)) (fun h => h2 (by simpa using h))
        simp only [setAt, getT, lookupS_setS, if_true, Option.bind_some]
        rw [this, getT_cons_sub a q l hq]
        simp [getT]
      · simp only [setAt, getT, lookupS_setS, if_neg ha]

/-! ## ensurePath -/

theorem ensure_leaf (path : List Str) (p c : List (Str × CT V)) (hc : Compatible c p) (r : List Str) :
    leafAt r (.sec (ensurePath path p c)) = leafAt r (.sec c) := by
  induction path generalizing p c r with
  | nil => rfl
  | cons k path ih =>
    simp only [ensurePath]
    cases hl : lookupS k p with
    | none => rfl
    | some t =>
      cases t with
      | val v => rfl
      | sec p' =>
        simp only
        cases r with
        | nil => rfl
        | cons a q =>
          by_cases ha : a = k
          · subst ha
            have hcomp : Compatible (subItems a c) p' := by
              intro s b b' h1 h2
              cases s with
              | nil => simp [kindAt, getT] at h1 h2; rw [h1, h2]
              | cons x s =>
                apply hc (a :: x :: s) b b'
                · unfold kindAt at h1 ⊢
                  rw [getT_cons_sub a (x :: s) c (by simp)] at h1
                  exact h1
                · unfold kindAt at h2 ⊢
                  simp only [getT, hl, Option.bind_some]
                  simpa [getT] using h2
            have := ih p' (subItems a c) hcomp q
            have e : leafAt (a :: q) (.sec (setS a (.sec (ensurePath path p' (subItems a c))) c)) =
                leafAt q (.sec (ensurePath path p' (subItems a c))) := by
              simp [leafAt, getT, lookupS_setS]
            rw [e, this]
            cases q with
            | nil =>
              -- a scalar here would be incompatible
              cases hx : leafAt [a] (.sec c) with
              | none => simp [leafAt, getT]
              | some v =>
                have h1 := kindAt_leaf _ _ _ hx
                have h2 : kindAt [a] (.sec p) = some true := by simp [kindAt, getT, hl]
                have := hc _ _ _ h1 h2
                cases this
            | cons x q =>
              unfold leafAt
              rw [getT_cons_sub a (x :: q) c (by simp)]
          · simp [leafAt, getT, lookupS_setS, ha]

theorem ensure_kind (path : List Str) (p c : List (Str × CT V)) (r : List Str) (b : Bool)
    (h : kindAt r (.sec (ensurePath path p c)) = some b) :
    kindAt r (.sec c) = some b ∨ (b = true ∧ kindAt r (.sec p) = some true) := by
  induction path generalizing p c r with
  | nil => exact Or.inl h
  | cons k path ih =>
    simp only [ensurePath] at h
    cases hl : lookupS k p with
    | none => rw [hl] at h; exact Or.inl h
    | some t =>
      rw [hl] at h
      cases t with
      | val v => exact Or.inl h
      | sec p' =>
        simp only at h
        cases r with
        | nil => exact Or.inl (by simpa [kindAt, getT] using h)
        | cons a q =>
          by_cases ha : a = k
          · subst ha
            have e : kindAt (a :: q) (.sec (setS a (.sec (ensurePath path p' (subItems a c))) c)) =
                kindAt q (.sec (ensurePath path p' (subItems a c))) := by
              simp [kindAt, getT, lookupS_setS]
            rw [e] at h
            have e2 : kindAt (a :: q) (.sec p) = kindAt q (.sec p') := by simp [kindAt, getT, hl]
            cases q with
            | nil =>
              right
              have : b = true := by simpa [kindAt, getT] using h.symm
              exact ⟨this, by rw [e2]; simp [kindAt, getT]⟩
            | cons x q =>
              rcases ih p' (subItems a c) (x :: q) h with h' | h'
              · left
                unfold kindAt at h' ⊢
                rw [← getT_cons_sub a (x :: q) c (by simp)]
                exact h'
              · right
                rw [e2]; exact h'
          · left
            simpa [kindAt, getT, lookupS_setS, ha] using h

/-! ## the invariant of the walks -/

structure PInv (T : Typing V) (c0 p0 c p : List (Str × CT V)) : Prop where
  kp : ∀ r, kindAt r (.sec p) = kindAt r (.sec p0)
  kc : ∀ r b, kindAt r (.sec c) = some b → kindAt r (.sec c0) = some b ∨ kindAt r (.sec p0) = some b
  others : ∀ r, leafAt r (.sec p0) = none → leafAt r (.sec c) = leafAt r (.sec c0)
  mine : ∀ r v0, leafAt r (.sec p0) = some v0 →
    (leafAt r (.sec p) = some v0 ∧ leafAt r (.sec c) = leafAt r (.sec c0)) ∨
    (leafAt r (.sec p) = some (coerced T (leafAt r (.sec c0)) v0) ∧
     leafAt r (.sec c) = some (coerced T (leafAt r (.sec c0)) v0))

/-- the option at `r` has received its patched value -/
def Done (T : Typing V) (c0 p0 : List (Str × CT V)) (r : List Str) (c p : List (Str × CT V)) : Prop :=
  ∀ v0, leafAt r (.sec p0) = some v0 → leafAt r (.sec p) = some (coerced T (leafAt r (.sec c0)) v0) ∧
     leafAt r (.sec c) = some (coerced T (leafAt r (.sec c0)) v0)

theorem PInv.compat {T : Typing V} {c0 p0 c p : List (Str × CT V)} (h : PInv T c0 p0 c p) (hc : Compatible c0 p0) :
    Compatible c p := by
  intro r b b' h1 h2
  rw [h.kp] at h2
  rcases h.kc r b h1 with h3 | h3
  · exact hc r b b' h3 h2
  · rw [h3] at h2; exact Option.some.inj h2

/-- one visit: the invariant is kept, the visited option is done, done options stay done -/
theorem visit_inv {T : Typing V} (hT : T.Lawful) {c0 p0 c p : List (Str × CT V)} (hcomp : Compatible c0 p0)
    (h : PInv T c0 p0 c p) (pk : List Str × Str) :
    PInv T c0 p0 (visit T pk (c, p)).1 (visit T pk (c, p)).2 ∧
    Done T c0 p0 (pk.1.map stripU ++ [pk.2]) (visit T pk (c, p)).1 (visit T pk (c, p)).2 ∧
    ∀ r, Done T c0 p0 r c p → Done T c0 p0 r (visit T pk (c, p)).1 (visit T pk (c, p)).2 := by
  have hcc := h.compat hcomp
  simp only [visit]
  generalize pk.1.map stripU = path
  generalize pk.2 = k
  have hen : ∀ r, leafAt r (.sec (ensurePath path p c)) = leafAt r (.sec c) := fun r => ensure_leaf path p c hcc r
  cases hx : leafAt (path ++ [k]) (.sec p) with
  | none =>
    refine ⟨⟨h.kp, ?_, ?_, ?_⟩, ?_, ?_⟩
    · intro r b hb
      rcases ensure_kind path p c r b hb with h1 | ⟨h1, h2⟩
      · exact h.kc r b h1
      · right; rw [← h.kp, h2, h1]
    · intro r hr; simp only [hen]; exact h.others r hr
    · intro r v0 hr; simp only [hen]; exact h.mine r v0 hr
    · intro v0 hv
      have h1 := kindAt_leaf _ _ _ hv
      rw [← h.kp] at h1
      have := (leafAt_none_iff _ _).1 hx
      exact absurd h1 this
    · intro r hr v0 hv; simp only [hen]; exact hr v0 hv
  | some v =>
    simp only [hen]
    -- the initial value in the patch and the final value
    have hkx : kindAt (path ++ [k]) (.sec p0) = some false := by rw [← h.kp]; exact kindAt_leaf _ _ _ hx
    obtain ⟨v0, hv0⟩ : ∃ v0, leafAt (path ++ [k]) (.sec p0) = some v0 := by
      cases hl : leafAt (path ++ [k]) (.sec p0) with
      | some v0 => exact ⟨v0, rfl⟩
      | none => exact absurd hkx ((leafAt_none_iff _ _).1 hl)
    have hw : coerced T (leafAt (path ++ [k]) (.sec c)) v = coerced T (leafAt (path ++ [k]) (.sec c0)) v0 := by
      rcases h.mine _ v0 hv0 with ⟨h1, h2⟩ | ⟨h1, h2⟩
      · rw [h1] at hx; cases hx; rw [h2]
      · rw [h1] at hx
        rw [h2]
        have hvw := Option.some.inj hx
        rw [← hvw]
        simp only [coerced, hT.cast_self, Option.getD_some]
    rw [hw]
    generalize hW : coerced T (leafAt (path ++ [k]) (.sec c0)) v0 = w
    -- how the assignment acts on the two trees
    have hkpx : kindAt (path ++ [k]) (.sec p) = some false := kindAt_leaf _ _ _ hx
    have same : ∀ l : List (Str × CT V), leafAt (path ++ [k]) (.sec (setAt path k (.val w) l)) = some w := by
      intro l
      rw [leafAt_eq_some, getT_setAt_same path k (.val w) l []]
      rfl
    have below : ∀ (l : List (Str × CT V)) (s : List Str), s ≠ [] → getT (path ++ [k] ++ s) (.sec (setAt path k (.val w) l)) = none := by
      intro l s hs
      apply getT_below _ _ _ hs
      rw [kindAt_leaf _ _ _ (same l)]; simp
    have hkpP : ∀ r, r <+: path → kindAt r (.sec p) = some true := by
      rintro r ⟨s, rfl⟩
      apply kindAt_prefix r (s ++ [k]) (.sec p) (by simp)
      rw [← List.append_assoc, (leafAt_eq_some _ _ _).1 hx]; simp
    have hnP : ∀ s, s ≠ [] → getT (path ++ [k] ++ s) (.sec p) = none := fun s hs =>
      getT_below _ _ _ hs (by rw [hkpx]; simp)
    have hnC : ∀ s, s ≠ [] → getT (path ++ [k] ++ s) (.sec c) = none := fun s hs => by
      apply getT_below _ _ _ hs
      intro hk
      have := hcc _ _ _ hk hkpx
      cases this
    have leafC : ∀ r, r ≠ path ++ [k] → leafAt r (.sec (setAt path k (.val w) (ensurePath path p c))) = leafAt r (.sec c) := by
      intro r hr
      by_cases h1 : r <+: path
      · have e1 : leafAt r (.sec (setAt path k (.val w) (ensurePath path p c))) = none := by
          rw [leafAt_none_iff, getT_setAt_prefix _ _ _ _ _ h1]; simp
        have e2 : leafAt r (.sec c) = none := by
          rw [leafAt_none_iff]
          intro hk
          have := hcc _ _ _ hk (hkpP r h1)
          cases this
        rw [e1, e2]
      · by_cases h2 : path ++ [k] <+: r
        · obtain ⟨s, rfl⟩ := h2
          have hs : s ≠ [] := by rintro rfl; simp at hr
          have e1 := below (ensurePath path p c) s hs
          have e2 := hnC s hs
          unfold leafAt; rw [e1, e2]
        · rw [← hen r]
          unfold leafAt
          rw [getT_setAt_other _ _ _ _ _ h1 h2]
    have leafP : ∀ r, r ≠ path ++ [k] → leafAt r (.sec (setAt path k (.val w) p)) = leafAt r (.sec p) := by
      intro r hr
      by_cases h1 : r <+: path
      · have e1 : leafAt r (.sec (setAt path k (.val w) p)) = none := by
          rw [leafAt_none_iff, getT_setAt_prefix _ _ _ _ _ h1]; simp
        have e2 : leafAt r (.sec p) = none := by
          rw [leafAt_none_iff, hkpP r h1]; simp
        rw [e1, e2]
      · by_cases h2 : path ++ [k] <+: r
        · obtain ⟨s, rfl⟩ := h2
          have hs : s ≠ [] := by rintro rfl; simp at hr
          unfold leafAt; rw [below p s hs, hnP s hs]
        · unfold leafAt
          rw [getT_setAt_other _ _ _ _ _ h1 h2]
    have done : Done T c0 p0 (path ++ [k]) (setAt path k (.val w) (ensurePath path p c)) (setAt path k (.val w) p) := by
      intro v1 hv1
      rw [hv0] at hv1
      cases hv1
      rw [same, same, hW]
      exact ⟨rfl, rfl⟩
    refine ⟨⟨?_, ?_, ?_, ?_⟩, done, ?_⟩
    · intro r
      rw [← h.kp]
      by_cases h1 : r <+: path
      · rw [getT_setAt_prefix _ _ _ _ _ h1, hkpP r h1]
      · by_cases h2 : path ++ [k] <+: r
        · obtain ⟨s, rfl⟩ := h2
          by_cases hs : s = []
          · subst hs
            rw [List.append_nil, kindAt_leaf _ _ _ (same p), hkpx]
          · unfold kindAt; rw [below p s hs, hnP s hs]
        · unfold kindAt
          rw [getT_setAt_other _ _ _ _ _ h1 h2]
    · intro r b hb
      by_cases h1 : r <+: path
      · rw [getT_setAt_prefix _ _ _ _ _ h1] at hb
        right
        rw [← h.kp, hkpP r h1, ← hb]
      · by_cases h2 : path ++ [k] <+: r
        · obtain ⟨s, rfl⟩ := h2
          by_cases hs : s = []
          · subst hs
            rw [List.append_nil, kindAt_leaf _ _ _ (same _)] at hb
            right
            rw [List.append_nil, hkx, ← hb]
          · unfold kindAt at hb; rw [below _ s hs] at hb; cases hb
        · have : kindAt r (.sec (ensurePath path p c)) = some b := by
            unfold kindAt at hb ⊢
            rw [getT_setAt_other _ _ _ _ _ h1 h2] at hb
            exact hb
          rcases ensure_kind path p c r b this with h3 | ⟨h3, h4⟩
          · exact h.kc r b h3
          · right; rw [← h.kp, h4, h3]
    · intro r hr
      have hne : r ≠ path ++ [k] := by rintro rfl; rw [hv0] at hr; cases hr
      rw [leafC r hne]; exact h.others r hr
    · intro r v1 hv1
      by_cases hne : r = path ++ [k]
      · subst hne; exact Or.inr (done v1 hv1)
      · rw [leafC r hne, leafP r hne]; exact h.mine r v1 hv1
    · intro r hr
      by_cases hne : r = path ++ [k]
      · subst hne; exact done
      · intro v1 hv1
        rw [leafC r hne, leafP r hne]; exact hr v1 hv1

theorem walk_inv {T : Typing V} (hT : T.Lawful) {c0 p0 : List (Str × CT V)} (hcomp : Compatible c0 p0)
    (vs : List (List Str × Str)) (st : List (Str × CT V) × List (Str × CT V)) (h : PInv T c0 p0 st.1 st.2) :
    let st' := vs.foldl (fun st pk => visit T pk st) st
    PInv T c0 p0 st'.1 st'.2 ∧ (∀ pk ∈ vs, Done T c0 p0 (pk.1.map stripU ++ [pk.2]) st'.1 st'.2) ∧
    ∀ r, Done T c0 p0 r st.1 st.2 → Done T c0 p0 r st'.1 st'.2 := by
  induction vs generalizing st with
  | nil => exact ⟨h, by simp, fun r hr => hr⟩
  | cons pk vs ih =>
    obtain ⟨h1, h2, h3⟩ := visit_inv hT hcomp h pk
    have := ih (visit T pk st) h1
    simp only [List.foldl_cons]
    refine ⟨this.1, ?_, fun r hr => this.2.2 r (h3 r hr)⟩
    intro q hq
    rcases List.mem_cons.1 hq with e | e
    · subst e; exact this.2.2 _ h2
    · exact this.2.1 q e

theorem mem_leaves (path : List Str) (k : Str) (v : V) (pre : List Str) (l : List (Str × CT V))
    (h : leafAt (path ++ [k]) (.sec l) = some v) : (pre ++ path, k) ∈ leavesL pre l := by
  have step : ∀ (a : Str) (t : CT V) (l : List (Str × CT V)) (pre : List Str), (a, t) ∈ l →
      ∀ x, x ∈ leavesT pre a t → x ∈ leavesL pre l := by
    intro a t l pre hm x hx
    induction l with
    | nil => simp at hm
    | cons q l ih =>
      obtain ⟨b, u⟩ := q
      simp only [leavesL, List.mem_append]
      rcases List.mem_cons.1 hm with e | e
      · cases e; exact Or.inl hx
      · exact Or.inr (ih e)
  induction path generalizing pre l with
  | nil =>
    rw [leafAt_eq_some] at h
    simp only [List.nil_append, getT] at h
    cases hl : lookupS k l with
    | none => rw [hl] at h; cases h
    | some t =>
      rw [hl] at h
      simp only [Option.bind_some, getT, Option.some.injEq] at h
      subst h
      exact step k _ l pre (mem_of_lookupS _ _ _ hl) _ (by simp [leavesT])
  | cons a path ih =>
    rw [leafAt_eq_some] at h
    simp only [List.cons_append, getT] at h
    cases hl : lookupS a l with
    | none => rw [hl] at h; cases h
    | some t =>
      rw [hl] at h
      simp only [Option.bind_some] at h
      cases t with
      | val u =>
        exfalso
        cases path <;> simp [getT] at h
      | sec l' =>
        apply step a _ l pre (mem_of_lookupS _ _ _ hl)
        simp only [leavesT]
        have := ih (pre ++ [a]) l' ((leafAt_eq_some _ _ _).2 h)
        simpa [List.append_assoc] using this

theorem patch_inv {S : Type} {T : Typing V} (hT : T.Lawful) (specs : List (Str × CT S)) (c p : List (Str × CT V))
    (hcomp : Compatible c p) :
    ∃ p', PInv T c p (patchCfg T specs c p) p' ∧
      ∀ path k, cleanPath path → leafAt (path ++ [k]) (.sec p) ≠ none →
        Done T c p (path ++ [k]) (patchCfg T specs c p) p' := by
  have h0 : PInv T c p (c, p).1 (c, p).2 :=
    ⟨fun r => rfl, fun r b h => Or.inl h, fun r _ => rfl, fun r v h => Or.inl ⟨h, rfl⟩⟩
  obtain ⟨h1, _, _⟩ := walk_inv hT hcomp (leavesL [] specs) (c, p) h0
  obtain ⟨h2, h3, _⟩ := walk_inv hT hcomp (leavesL [] ((leavesL [] specs).foldl (fun st pk => visit T pk st) (c, p)).2) _ h1
  refine ⟨_, h2, ?_⟩
  intro path k hclean hleaf
  have hk : kindAt (path ++ [k]) (.sec p) = some false := by
    cases hx : leafAt (path ++ [k]) (.sec p) with
    | none => exact absurd hx hleaf
    | some v => exact kindAt_leaf _ _ _ hx
  rw [← h1.kp] at hk
  cases hx : leafAt (path ++ [k]) (.sec ((leavesL [] specs).foldl (fun st pk => visit T pk st) (c, p)).2) with
  | none => exact absurd hk ((leafAt_none_iff _ _).1 hx)
  | some v =>
    have hm := mem_leaves path k v [] _ hx
    have := h3 _ hm
    simp only [List.nil_append] at this
    rw [hclean] at this
    exact this

/-! ## Theorems -/

/-- **C57** (patched options): every option of the patch, at any depth in sections whose names
have no underscore at their ends, gets its patch value in the result, converted to the type
of the current value of the configuration when there is one and this is possible. -/
theorem C57_patched {S : Type} {T : Typing V} (hT : T.Lawful) (specs : List (Str × CT S)) (c p : List (Str × CT V))
    (hcomp : Compatible c p) (path : List Str) (k : Str) (hclean : cleanPath path) (v : V)
    (hv : leafAt (path ++ [k]) (.sec p) = some v) :
    leafAt (path ++ [k]) (.sec (patchCfg T specs c p)) = some (coerced T (leafAt (path ++ [k]) (.sec c)) v) := by
  obtain ⟨p', _, h⟩ := patch_inv hT specs c p hcomp
  exact (h path k hclean (by rw [hv]; simp) v hv).2

/-- ... in particular the value itself when the option is new or has the same type -/
theorem C57_patched_same_type {S : Type} {T : Typing V} (hT : T.Lawful) (specs : List (Str × CT S)) (c p : List (Str × CT V))
    (hcomp : Compatible c p) (path : List Str) (k : Str) (hclean : cleanPath path) (v : V)
    (hv : leafAt (path ++ [k]) (.sec p) = some v)
    (hty : ∀ u, leafAt (path ++ [k]) (.sec c) = some u → T.ty u = T.ty v) :
    leafAt (path ++ [k]) (.sec (patchCfg T specs c p)) = some v := by
  rw [C57_patched hT specs c p hcomp path k hclean v hv]
  cases hu : leafAt (path ++ [k]) (.sec c) with
  | none => rfl
  | some u => simp [coerced, hty u hu, hT.cast_self]

/-- **C57** (converted options): a patched option that has a value of another type gets the patch value converted to that type -/
theorem C57_converted {S : Type} {T : Typing V} (hT : T.Lawful) (specs : List (Str × CT S)) (c p : List (Str × CT V))
    (hcomp : Compatible c p) (path : List Str) (k : Str) (hclean : cleanPath path) (u v w : V)
    (hv : leafAt (path ++ [k]) (.sec p) = some v) (hu : leafAt (path ++ [k]) (.sec c) = some u) (hw : T.cast (T.ty u) v = some w) :
    leafAt (path ++ [k]) (.sec (patchCfg T specs c p)) = some w := by
  rw [C57_patched hT specs c p hcomp path k hclean v hv, hu]
  simp [coerced, hw]

/-- **C57** (options that cannot be converted): the option gets the patch value as it is -/
theorem C57_not_convertible {S : Type} {T : Typing V} (hT : T.Lawful) (specs : List (Str × CT S)) (c p : List (Str × CT V))
    (hcomp : Compatible c p) (path : List Str) (k : Str) (hclean : cleanPath path) (u v : V)
    (hv : leafAt (path ++ [k]) (.sec p) = some v) (hu : leafAt (path ++ [k]) (.sec c) = some u) (hw : T.cast (T.ty u) v = none) :
    leafAt (path ++ [k]) (.sec (patchCfg T specs c p)) = some v := by
  rw [C57_patched hT specs c p hcomp path k hclean v hv, hu]
  simp [coerced, hw]

/-- **C57** (other options): an option that is not in the patch is unchanged, present or not. -/
theorem C57_others {S : Type} {T : Typing V} (hT : T.Lawful) (specs : List (Str × CT S)) (c p : List (Str × CT V))
    (hcomp : Compatible c p) (r : List Str) (h : leafAt r (.sec p) = none) :
    leafAt r (.sec (patchCfg T specs c p)) = leafAt r (.sec c) := by
  obtain ⟨p', hi, _⟩ := patch_inv hT specs c p hcomp
  exact hi.others r h

/-- **C57** (idempotence): patching the result again with the same patch gives the same options. -/
theorem C57_idempotent {S : Type} {T : Typing V} (hT : T.Lawful) (specs : List (Str × CT S)) (c p : List (Str × CT V))
    (hcomp : Compatible c p) (hclean : ∀ path k, leafAt (path ++ [k]) (.sec p) ≠ none → cleanPath path) (r : List Str) :
    leafAt r (.sec (patchCfg T specs (patchCfg T specs c p) p)) = leafAt r (.sec (patchCfg T specs c p)) := by
  obtain ⟨p', hi, hd⟩ := patch_inv hT specs c p hcomp
  have hcomp2 : Compatible (patchCfg T specs c p) p := by
    intro r b b' h1 h2
    rcases hi.kc r b h1 with h3 | h3
    · exact hcomp r b b' h3 h2
    · rw [h3] at h2; exact Option.some.inj h2
  cases hr : leafAt r (.sec p) with
  | none => exact C57_others hT specs _ p hcomp2 r hr
  | some v =>
    rcases List.eq_nil_or_concat r with e | ⟨path, k, e⟩
    · subst e; simp [leafAt, getT] at hr
    · rw [List.concat_eq_append] at e
      subst e
      have hcl := hclean path k (by rw [hr]; simp)
      rw [C57_patched hT specs _ p hcomp2 path k hcl v hr,
        C57_patched hT specs c p hcomp path k hcl v hr]
      congr 1
      cases hu : leafAt (path ++ [k]) (.sec c) with
      | none => simp [coerced, hT.cast_self]
      | some u =>
        simp only [coerced]
        cases hcast : T.cast (T.ty u) v with
        | none => simp [hT.cast_self]
        | some w => simp [hT.cast_ty _ _ _ hcast, hcast]

/-! ## a concrete typing, and violations -/

/-- some Python values -/
inductive PyVal
  | str (s : Str)
  | bool (b : Bool)
  | list (l : List Str)
  deriving DecidableEq, Repr

inductive PyTy
  | str | bool | list
  deriving DecidableEq, Repr

/-- `bool(x)`, `list(x)`; `str` is only applied to strings here (`str(x)` of other values is
modelled as a failure, i.e. the value is kept) -/
def pyTyping : Typing PyVal where
  Ty := PyTy
  ty := fun v => match v with
    | .str _ => .str
    | .bool _ => .bool
    | .list _ => .list
  cast := fun t v => match t, v with
    | .str, .str s => some (.str s)
    | .bool, .str s => some (.bool (s ≠ []))
    | .bool, .bool b => some (.bool b)
    | .bool, .list l => some (.bool (l ≠ []))
    | .list, .list l => some (.list l)
    | .list, .str s => some (.list (s.map (fun c => [c])))
    | _, _ => none

theorem pyTyping_lawful : pyTyping.Lawful := by
  constructor
  · intro v; cases v <;> rfl
  · intro t v w h
    cases t <;> cases v <;> simp [pyTyping] at h <;> subst h <;> rfl

/-- **C99 is violated** by all the texts: in a boolean option, a text of the patch that is not empty means true. -/
theorem C99_bool_text_violated {S : Type} (specs : List (Str × CT S)) (c p : List (Str × CT PyVal))
    (hcomp : Compatible c p) (path : List Str) (k : Str) (hclean : cleanPath path) (b : Bool) (t : Str) (ht : t ≠ [])
    (hc : leafAt (path ++ [k]) (.sec c) = some (.bool b)) (hp : leafAt (path ++ [k]) (.sec p) = some (.str t)) :
    leafAt (path ++ [k]) (.sec (patchCfg pyTyping specs c p)) = some (.bool true) := by
  rw [C57_patched pyTyping_lawful specs c p hcomp path k hclean _ hp, hc]
  simp [coerced, pyTyping, ht]

theorem stripU_stripU (s : Str) : stripU (stripU s) = stripU s := by
  have hd : ∀ l : Str, (∀ x, l.head? = some x → x ≠ '_') → l.dropWhile (fun c => decide (c = '_')) = l := by
    intro l hl
    cases l with
    | nil => rfl
    | cons x l => rw [List.dropWhile_cons_of_neg]; simpa using hl x rfl
  have hh : ∀ (l : Str) (x : Char), (l.dropWhile (fun c => decide (c = '_'))).head? = some x → x ≠ '_' := by
    intro l
    induction l with
    | nil => intro x hx; cases hx
    | cons y l ih =>
      intro x hx
      by_cases hy : y = '_'
      · rw [List.dropWhile_cons_of_pos (by simpa using hy)] at hx
        exact ih x hx
      · rw [List.dropWhile_cons_of_neg (by simpa using hy)] at hx
        simp at hx
        subst hx
        exact hy
  unfold stripU
  generalize hu : s.dropWhile (fun c => decide (c = '_')) = u
  have h1 : ∀ x, ((u.reverse.dropWhile (fun c => decide (c = '_'))).reverse).head? = some x → x ≠ '_' := by
    intro x hx
    have hs : (u.reverse.dropWhile (fun c => decide (c = '_'))).reverse <+: u := by
      have := List.dropWhile_suffix (fun c : Char => decide (c = '_')) (l := u.reverse)
      rw [← List.reverse_prefix] at this
      simpa using this
    obtain ⟨w, hw⟩ := hs
    apply hh s x
    rw [hu, ← hw, List.head?_append, hx]
    rfl
  rw [hd _ h1, List.reverse_reverse]
  congr 1
  apply hd
  intro x hx
  exact hh _ x hx

theorem visit_other {T : Typing V} (hT : T.Lawful) {c0 p0 c p : List (Str × CT V)} (hcomp : Compatible c0 p0)
    (h : PInv T c0 p0 c p) (pk : List Str × Str) (r : List Str) (hr : r ≠ pk.1.map stripU ++ [pk.2]) :
    leafAt r (.sec (visit T pk (c, p)).1) = leafAt r (.sec c) := by
  have hcc := h.compat hcomp
  simp only [visit]
  generalize pk.1.map stripU = path at hr ⊢
  generalize pk.2 = k at hr ⊢
  have hen : ∀ r, leafAt r (.sec (ensurePath path p c)) = leafAt r (.sec c) := fun r => ensure_leaf path p c hcc r
  cases hx : leafAt (path ++ [k]) (.sec p) with
  | none => exact hen r
  | some v =>
    simp only
    generalize coerced T (leafAt (path ++ [k]) (.sec (ensurePath path p c))) v = w
    have hkpx : kindAt (path ++ [k]) (.sec p) = some false := kindAt_leaf _ _ _ hx
    by_cases h1 : r <+: path
    · have hkpP : kindAt r (.sec p) = some true := by
        obtain ⟨s, rfl⟩ := h1
        apply kindAt_prefix r (s ++ [k]) (.sec p) (by simp)
        rw [← List.append_assoc, (leafAt_eq_some _ _ _).1 hx]; simp
      have e1 : leafAt r (.sec (setAt path k (.val w) (ensurePath path p c))) = none := by
        rw [leafAt_none_iff, getT_setAt_prefix _ _ _ _ _ h1]; simp
      have e2 : leafAt r (.sec c) = none := by
        rw [leafAt_none_iff]
        intro hk
        have := hcc _ _ _ hk hkpP
        cases this
      rw [e1, e2]
    · by_cases h2 : path ++ [k] <+: r
      · obtain ⟨s, rfl⟩ := h2
        have hs : s ≠ [] := by rintro rfl; simp at hr
        have e1 : getT (path ++ [k] ++ s) (.sec (setAt path k (.val w) (ensurePath path p c))) = none := by
          apply getT_below _ _ _ hs
          rw [kindAt_leaf _ _ w]
          · simp
          · rw [leafAt_eq_some, getT_setAt_same path k (.val w) _ []]; rfl
        have e2 : getT (path ++ [k] ++ s) (.sec c) = none := by
          apply getT_below _ _ _ hs
          intro hk
          have := hcc _ _ _ hk hkpx
          cases this
        unfold leafAt; rw [e1, e2]
      · rw [← hen r]
        unfold leafAt
        rw [getT_setAt_other _ _ _ _ _ h1 h2]

/-- **C99 is violated** by all the sections whose name starts or ends with an underscore: their options are never patched, at any depth and
for any patch. -/
theorem C99_underscored_violated {S : Type} {T : Typing V} (hT : T.Lawful) (specs : List (Str × CT S)) (c p : List (Str × CT V))
    (hcomp : Compatible c p) (path : List Str) (k : Str) (n : Str) (hn : n ∈ path) (hu : n.head? = some '_' ∨ n.getLast? = some '_') :
    leafAt (path ++ [k]) (.sec (patchCfg T specs c p)) = leafAt (path ++ [k]) (.sec c) := by
  have hbad : ∀ q : List Str × Str, path ++ [k] ≠ q.1.map stripU ++ [q.2] := by
    intro q hq
    have h1 := (List.append_inj' hq rfl).1
    rw [h1, List.mem_map] at hn
    obtain ⟨m, _, rfl⟩ := hn
    have hid := stripU_stripU m
    generalize stripU m = u at hid hu
    rcases hu with hu | hu
    · cases u with
      | nil => cases hu
      | cons x u =>
        simp at hu
        subst hu
        have hl := congrArg List.length hid
        unfold stripU at hl
        rw [List.dropWhile_cons_of_pos (by simp)] at hl
        have l1 := (List.dropWhile_suffix (fun c : Char => decide (c = '_')) (l := u)).length_le
        have l2 := (List.dropWhile_suffix (fun c : Char => decide (c = '_')) (l := (u.dropWhile (fun c => decide (c = '_'))).reverse)).length_le
        simp only [List.length_reverse, List.length_cons] at hl l1 l2
        omega
    · have hlast : u.reverse.head? = some '_' := by rw [List.head?_reverse]; exact hu
      have hl := congrArg List.length hid
      unfold stripU at hl
      cases hz : u.dropWhile (fun c : Char => decide (c = '_')) with
      | nil =>
        rw [hz] at hl
        simp only [List.reverse_nil, List.dropWhile_nil, List.length_nil] at hl
        rw [List.eq_nil_of_length_eq_zero hl.symm] at hlast
        cases hlast
      | cons a w =>
        have hsuf : u.dropWhile (fun c : Char => decide (c = '_')) <:+ u := List.dropWhile_suffix _
        have l1 := hsuf.length_le
        rw [hz] at hl l1
        have hl2 : (a :: w).getLast? = some '_' := by
          obtain ⟨pre, hpre⟩ := hsuf
          rw [hz] at hpre
          rw [← hpre, List.getLast?_append] at hu
          cases hg : (a :: w).getLast? with
          | none => simp at hg
          | some z => rw [hg] at hu; simpa using hu
        have hr : (a :: w).reverse.head? = some '_' := by rw [List.head?_reverse]; exact hl2
        cases hv : (a :: w).reverse with
        | nil => rw [hv] at hr; cases hr
        | cons y v =>
          rw [hv] at hr hl
          simp at hr
          subst hr
          rw [List.dropWhile_cons_of_pos (by simp)] at hl
          have l2 := (List.dropWhile_suffix (fun c : Char => decide (c = '_')) (l := v)).length_le
          have l3 := congrArg List.length hv
          simp only [List.length_reverse, List.length_cons] at hl l1 l2 l3
          omega
  have walk : ∀ (vs : List (List Str × Str)) (st : List (Str × CT V) × List (Str × CT V)), PInv T c p st.1 st.2 →
      leafAt (path ++ [k]) (.sec (vs.foldl (fun st pk => visit T pk st) st).1) = leafAt (path ++ [k]) (.sec st.1) := by
    intro vs
    induction vs with
    | nil => intro st _; rfl
    | cons pk vs ih =>
      intro st h
      rw [List.foldl_cons, ih _ (visit_inv hT hcomp h pk).1]
      exact visit_other hT hcomp h pk _ (hbad pk)
  have h0 : PInv T c p (c, p).1 (c, p).2 :=
    ⟨fun r => rfl, fun r b h => Or.inl h, fun r _ => rfl, fun r v h => Or.inl ⟨h, rfl⟩⟩
  unfold patchCfg
  rw [walk _ _ (walk_inv hT hcomp (leavesL [] specs) (c, p) h0).1, walk _ _ h0]

/-- **C99 is violated** by conversion of strings: patching the boolean `flag = True` with the
(unvalidated) string `"False"` gives `True`. -/
theorem C99_bool_string_violated :
    leafAt ["flag".toList] (.sec (patchCfg pyTyping ([] : List (Str × CT Unit))
      [("flag".toList, .val (.bool true))] [("flag".toList, .val (.str "False".toList))])) = some (.bool true) := by
  decide +kernel

/-- **C99 is violated** for sections whose name starts or ends with an underscore: the patch is
silently ignored. -/
theorem C99_underscore_violated :
    let p : List (Str × CT PyVal) := [("_s".toList, .sec [("x".toList, .val (.bool true))])]
    let c : List (Str × CT PyVal) := [("_s".toList, .sec [("x".toList, .val (.bool false))])]
    leafAt ["_s".toList, "x".toList] (.sec p) = some (.bool true) ∧
    leafAt ["_s".toList, "x".toList] (.sec (patchCfg pyTyping ([] : List (Str × CT Unit)) c p)) = some (.bool false) := by
  decide +kernel

/-- an instance of the hypotheses -/
def exC : List (Str × CT PyVal) :=
  [("a".toList, .val (.str "1".toList)), ("s".toList, .sec [("x".toList, .val (.bool true)), ("y".toList, .val (.str "u".toList))])]
def exP : List (Str × CT PyVal) :=
  [("s".toList, .sec [("x".toList, .val (.bool false))]), ("n".toList, .sec [("z".toList, .val (.list []))])]

example : leafAt ["s".toList, "x".toList] (.sec (patchCfg pyTyping ([] : List (Str × CT Unit)) exC exP)) = some (.bool false) ∧
    leafAt ["s".toList, "y".toList] (.sec (patchCfg pyTyping ([] : List (Str × CT Unit)) exC exP)) = some (.str "u".toList) ∧
    leafAt ["n".toList, "z".toList] (.sec (patchCfg pyTyping ([] : List (Str × CT Unit)) exC exP)) = some (.list []) := by
  decide +kernel
example : cleanPath ["s".toList] := by unfold cleanPath; decide
example : Compatible exC exP := by
  intro r b b' h1 h2
  match r with
  | [] => simp [kindAt, getT] at h1 h2; rw [h1, h2]
  | [k] =>
    simp only [kindAt, getT, exC, exP, lookupS] at h1 h2
    by_cases e1 : k = "a".toList
    · subst e1; simp at h2
    · rw [if_neg e1] at h1
      by_cases e2 : k = "s".toList
      · subst e2; simp [getT] at h1 h2; rw [h1, h2]
      · rw [if_neg e2] at h1; simp at h1
  | k :: k2 :: q =>
    simp only [kindAt, getT, exC, exP, lookupS] at h1 h2
    by_cases e1 : k = "a".toList
    · subst e1; simp at h2
    · rw [if_neg e1] at h1
      by_cases e2 : k = "s".toList
      · subst e2
        simp only [if_true, Option.bind_some, getT, lookupS] at h1 h2
        by_cases e3 : k2 = "x".toList
        · subst e3
          cases q with
          | nil => simp [getT] at h1 h2; rw [h1, h2]
          | cons _ _ => simp [getT] at h1
        · rw [if_neg e3] at h2; simp at h2
      · rw [if_neg e2] at h1; simp at h1

end Xoa
