import Verif.CfgInit
import Verif.CfgLoadProps
import Verif.CfgmProps
import Verif.ValidatorsProps
import Verif.CfgHelpProps

/-!
# C164 (specifications of a `ConfigManager`), C165 (the specifications given to `ConfigManager`)
-/

namespace Xoa

/-! ## reading a check -/

theorem updateS_append {α : Type} (d e f : List (Str × α)) : updateS d (e ++ f) = updateS (updateS d e) f := by
  simp [updateS, List.foldl_append]

theorem paramsOf_comma (g w : Str) : paramsOf (g ++ ',' :: w) = paramsOf g ++ paramsOf w := by
  unfold paramsOf
  rw [splitComma_append_comma, List.filterMap_append]

theorem beforeClose_last (s : Str) : beforeClose (s ++ [')']) = some s := by
  simp [beforeClose, notClose]

theorem beforeClose_some (s g : Str) (h : beforeClose s = some g) : ∃ r, s = g ++ ')' :: r ∧ ')' ∉ r := by
  unfold beforeClose at h
  have hs : s.reverse = s.reverse.takeWhile notClose ++ s.reverse.dropWhile notClose := List.takeWhile_append_dropWhile.symm
  have hp : ∀ c ∈ s.reverse.takeWhile notClose, c ≠ ')' := fun c hc => by simpa [notOpen, notClose] using takeWhile_mem_true _ _ c hc
  have hd : ∀ c l, s.reverse.dropWhile notClose = c :: l → c = ')' := by
    intro c l e
    have := List.head?_dropWhile_not notClose s.reverse
    rw [e] at this
    simpa [notClose] using this
  generalize s.reverse.takeWhile notClose = a at hs hp
  generalize s.reverse.dropWhile notClose = b at hs hd h
  cases b with
  | nil => cases h
  | cons c l =>
    injection h with h
    refine ⟨a.reverse, ?_, fun hc => hp _ (by simpa using hc) rfl⟩
    have := congrArg List.reverse hs
    rw [List.reverse_reverse] at this
    rw [this, hd c l rfl, ← h]
    simp

theorem funcMatch_cons (c : Char) (s : Str) : funcMatch (c :: s) = funcBody (c :: s.takeWhile notOpen) (s.dropWhile notOpen) := rfl

theorem funcBody_cons (n : Str) (x : Char) (body : Str) : funcBody n (x :: body) = (beforeClose body).map (fun g => (n, g)) := rfl

/-- the shape of a text that the expression of a check matches -/
theorem funcMatch_some (check n g : Str) (h : funcMatch check = some (n, g)) :
    ∃ c m r, n = c :: m ∧ '(' ∉ m ∧ check = n ++ '(' :: g ++ ')' :: r ∧ ')' ∉ r := by
  cases check with
  | nil => cases h
  | cons c s =>
    rw [funcMatch_cons] at h
    have hs : s = s.takeWhile notOpen ++ s.dropWhile notOpen := List.takeWhile_append_dropWhile.symm
    have hp : ∀ c ∈ s.takeWhile notOpen, c ≠ '(' := fun c hc => by simpa [notOpen, notClose] using takeWhile_mem_true _ _ c hc
    have hd : ∀ x l, s.dropWhile notOpen = x :: l → x = '(' := by
      intro x l e
      have := List.head?_dropWhile_not notOpen s
      rw [e] at this
      simpa [notOpen] using this
    generalize s.takeWhile notOpen = a at hs hp h
    generalize s.dropWhile notOpen = b at hs hd h
    cases b with
    | nil => cases h
    | cons x body =>
      rw [funcBody_cons] at h
      cases hb : beforeClose body with
      | none => rw [hb] at h; cases h
      | some g' =>
        rw [hb] at h
        simp only [Option.map_some, Option.some.injEq, Prod.mk.injEq] at h
        obtain ⟨rfl, rfl⟩ := h
        obtain ⟨r, e, hr⟩ := beforeClose_some body g' hb
        refine ⟨c, a, r, rfl, fun hc => hp _ hc rfl, ?_, hr⟩
        rw [hs, hd x body rfl, e]
        simp

theorem funcMatch_form (c : Char) (m g r : Str) (hm : '(' ∉ m) (hr : ')' ∉ r) : funcMatch (c :: m ++ '(' :: g ++ ')' :: r) = some (c :: m, g) := by
  have hp : ∀ x ∈ m, notOpen x = true := by
    intro x hx
    have : x ≠ '(' := fun e => hm (e ▸ hx)
    simpa [notOpen] using this
  have e : c :: m ++ '(' :: g ++ ')' :: r = c :: (m ++ '(' :: (g ++ ')' :: r)) := by simp
  rw [e, funcMatch_cons]
  have d1 : (m ++ '(' :: (g ++ ')' :: r)).dropWhile notOpen = '(' :: (g ++ ')' :: r) := by
    rw [List.dropWhile_append_of_pos hp]
    simp [notOpen]
  have t1 : (m ++ '(' :: (g ++ ')' :: r)).takeWhile notOpen = m := by
    rw [List.takeWhile_append_of_pos hp]
    simp [notOpen]
  rw [d1, t1, funcBody_cons]
  have hq : ∀ x ∈ r.reverse, notClose x = true := by
    intro x hx
    have : x ≠ ')' := fun e => hr (e ▸ by simpa using hx)
    simpa [notClose] using this
  have b1 : beforeClose (g ++ ')' :: r) = some g := by
    unfold beforeClose
    have e2 : (g ++ ')' :: r).reverse = r.reverse ++ ')' :: g.reverse := by simp
    rw [e2, List.dropWhile_append_of_pos hq]
    simp [notClose]
  rw [b1]
  rfl

theorem parse_form (c : Char) (m g : Str) (hm : '(' ∉ m) :
    parseCheck (c :: m ++ '(' :: g ++ [')']) = ⟨c :: m, (paramsOf g).filterMap posOf,
      (updateS [] ((paramsOf g).filterMap kwOf)).filter (fun p => decide (p.1 ≠ "default".toList)),
      lookupS "default".toList (updateS [] ((paramsOf g).filterMap kwOf))⟩ := by
  unfold parseCheck
  rw [funcMatch_form c m g [] hm (by simp)]

/-! ## the last parameter -/

theorem eqParts_last (a w : Str) (hw : '=' ∉ w) : eqParts (a ++ '=' :: w) = some (a, w) := by
  have hp : ∀ x ∈ w.reverse, notEqual x = true := by
    intro x hx
    have : x ≠ '=' := fun e => hw (e ▸ by simpa using hx)
    simpa [notEqual] using this
  unfold eqParts
  have e : (a ++ '=' :: w).reverse = w.reverse ++ '=' :: a.reverse := by simp
  rw [e, List.dropWhile_append_of_pos hp, List.takeWhile_append_of_pos hp]
  simp [notEqual]

theorem lstrip_append (a w : Str) (c : Char) (hc : isSpace c = false) : ∃ a', lstrip (a ++ c :: w) = a' ++ c :: w := by
  induction a with
  | nil => exact ⟨[], by simp [lstrip, hc]⟩
  | cons x a ih =>
    by_cases hx : isSpace x = true
    · obtain ⟨a', h⟩ := ih
      exact ⟨a', by simpa [lstrip, hx] using h⟩
    · exact ⟨x :: a, by simp [lstrip, hx]⟩

theorem rstrip_last (a : Str) (c : Char) (hc : isSpace c = false) : rstrip (a ++ [c]) = a ++ [c] := by
  simp [rstrip, hc]

/-- whatever is before, `)(default=False` is read as the default -/
theorem paramOf_accident (x : Str) : paramOf (x ++ ")(default=False".toList) = some (.kw "default".toList "False".toList) := by
  have h1 : ∃ a', strip (x ++ ")(default=False".toList) = a' ++ ")(default".toList ++ '=' :: "False".toList := by
    obtain ⟨a', h⟩ := lstrip_append x "(default=False".toList ')' rfl
    have e : x ++ ")(default=False".toList = x ++ ')' :: "(default=False".toList := rfl
    refine ⟨a', ?_⟩
    unfold strip
    rw [e, h]
    have e2 : a' ++ ')' :: "(default=False".toList = (a' ++ ")(default=Fals".toList) ++ ['e'] := by
      rw [List.append_assoc]
      rfl
    rw [e2, rstrip_last _ _ rfl, List.append_assoc, List.append_assoc]
    rfl
  obtain ⟨a', h1⟩ := h1
  unfold paramOf
  rw [h1, eqParts_last _ _ (by decide)]
  have h2 : rstrip (a' ++ ")(default".toList) = a' ++ ")(default".toList := by
    have e2 : a' ++ ")(default".toList = (a' ++ ")(defaul".toList) ++ ['t'] := by
      rw [List.append_assoc]
      rfl
    rw [e2, rstrip_last _ _ rfl]
  have h3 : identSuffix (a' ++ ")(default".toList) = "default".toList := by
    unfold identSuffix
    have e3 : (a' ++ ")(default".toList).reverse = "default".toList.reverse ++ '(' :: ')' :: a'.reverse := by
      rw [List.reverse_append]
      rfl
    rw [e3, List.takeWhile_append_of_pos (by decide)]
    have e4 : List.takeWhile isWord ('(' :: ')' :: a'.reverse) = [] := by
      rw [List.takeWhile_cons_of_neg]
      decide
    rw [e4]
    decide
  dsimp only
  rw [h2, h3, if_neg (by decide), if_neg (by decide)]
  rfl

theorem splitComma_end (g w cur : Str) (hw : ',' ∉ w) : ∃ init last, splitComma cur g = init ++ [last] ∧ splitComma cur (g ++ w) = init ++ [last ++ w] := by
  induction g generalizing cur with
  | nil =>
    refine ⟨[], cur.reverse, rfl, ?_⟩
    have := splitComma_word w cur [] hw
    rw [List.append_nil] at this
    rw [List.nil_append, this]
    simp [splitComma]
  | cons c g ih =>
    rw [List.cons_append, splitComma, splitComma]
    by_cases hc : c = ','
    · rw [if_pos hc, if_pos hc]
      obtain ⟨i, l, e1, e2⟩ := ih []
      exact ⟨cur.reverse :: i, l, by rw [e1]; rfl, by rw [e2]; rfl⟩
    · rw [if_neg hc, if_neg hc]
      exact ih (c :: cur)

theorem paramsOf_accident (g : Str) (h : paramsOf g = []) : paramsOf (g ++ ")(default=False".toList) = [.kw "default".toList "False".toList] := by
  obtain ⟨i, l, e1, e2⟩ := splitComma_end g ")(default=False".toList [] (by decide)
  unfold paramsOf at h ⊢
  rw [e1, List.filterMap_append, List.append_eq_nil_iff] at h
  rw [e2, List.filterMap_append, h.1]
  simp only [List.nil_append, List.filterMap_cons, paramOf_accident, List.filterMap_nil]

/-! ## C164 -/

/-- a check without parenthesis, or that ends at its closing parenthesis -/
def PlainCheck (check : Str) : Prop := '(' ∉ check ∨ ∃ s, check = s ++ [')']

theorem funcMatch_none (check : Str) (h : '(' ∉ check) : funcMatch check = none := by
  cases hf : funcMatch check with
  | none => rfl
  | some p =>
    obtain ⟨n, g⟩ := p
    obtain ⟨c, m, r, -, -, e, -⟩ := funcMatch_some check n g hf
    exact absurd (by rw [e]; simp) h

theorem kwOf_nil (L : List ChkParam) (h1 : L.filterMap posOf = []) (h2 : L.filterMap kwOf = []) : L = [] := by
  cases L with
  | nil => rfl
  | cons p L =>
    cases p with
    | pos v => simp [posOf] at h1
    | kw k v => simp [kwOf] at h2

theorem setS_ne_nil {α : Type} (k : Str) (v : α) (d : List (Str × α)) : setS k v d ≠ [] := by
  cases d with
  | nil => simp [setS]
  | cons p d => simp only [setS]; split <;> simp

theorem updateS_nil {α : Type} (e : List (Str × α)) (h : updateS [] e = []) : e = [] := by
  have : ∀ (e d : List (Str × α)), d ≠ [] → updateS d e ≠ [] := by
    intro e
    induction e with
    | nil => intro d hd; exact hd
    | cons p e ih => intro d _; exact ih _ (setS_ne_nil _ _ _)
  cases e with
  | nil => rfl
  | cons p e => exact absurd h (this e _ (setS_ne_nil p.1 p.2 []))

theorem filter_setS {α : Type} (k : Str) (v : α) (d : List (Str × α)) (h : lookupS k d = none) :
    (setS k v d).filter (fun p => decide (p.1 ≠ k)) = d.filter (fun p => decide (p.1 ≠ k)) := by
  induction d with
  | nil => simp [setS]
  | cons p d ih =>
    obtain ⟨a, b⟩ := p
    simp only [lookupS] at h
    by_cases hk : k = a
    · rw [if_pos hk] at h; cases h
    · rw [if_neg hk] at h
      simp only [setS, if_neg hk, List.filter_cons]
      rw [ih h]

/-- **C164** (booleans): a boolean option without default gets the default `False`, with the same parameters. -/
theorem C164_boolean (check : Str) (hp : PlainCheck check) (hn : (parseCheck check).name = "boolean".toList) (hd : (parseCheck check).dflt = none) :
    parseCheck (setBoolFalse check) = { parseCheck check with dflt := some "False".toList } := by
  unfold setBoolFalse
  dsimp only
  rw [if_pos ⟨hn, hd⟩]
  cases hf : funcMatch check with
  | none =>
    have e : parseCheck check = ⟨check, [], [], none⟩ := by unfold parseCheck; rw [hf]
    rw [e] at hn ⊢
    dsimp only at hn ⊢
    rw [if_neg (by simp), hn]
    decide +kernel
  | some q =>
    obtain ⟨n, g⟩ := q
    obtain ⟨c, m, r, rfl, hm, e, hr⟩ := funcMatch_some check n g hf
    have hr0 : r = [] := by
      rcases hp with h | ⟨s, h⟩
      · exact absurd (by rw [e]; simp) h
      · rcases List.eq_nil_or_concat r with h0 | ⟨r', x, h0⟩
        · exact h0
        · exfalso
          rw [h, h0] at e
          have e2 : s ++ [')'] = (c :: m ++ '(' :: g ++ ')' :: r') ++ [x] := by rw [e]; simp
          have := (List.append_inj' e2 rfl).2
          simp only [List.cons.injEq, and_true] at this
          exact hr (by rw [h0, ← this]; simp)
    subst hr0
    have hparse := parse_form c m g hm
    rw [← e] at hparse
    rw [hparse] at hn hd ⊢
    dsimp only at hn hd ⊢
    set L := paramsOf g with hL
    by_cases hargs : L.filterMap posOf ≠ [] ∨ (updateS [] (L.filterMap kwOf)).filter (fun p => decide (p.1 ≠ "default".toList)) ≠ []
    · rw [if_pos hargs]
      have hnew : check.dropLast ++ ", default=False)".toList = c :: m ++ '(' :: (g ++ ',' :: " default=False".toList) ++ [')'] := by
        have : check.dropLast = c :: m ++ '(' :: g := by rw [e, List.dropLast_append_of_ne_nil (by simp)]; simp
        rw [this]
        simp only [List.append_assoc, List.cons_append]
        rfl
      rw [hnew, parse_form c m _ hm, paramsOf_comma, ← hL]
      have hone : paramsOf " default=False".toList = [.kw "default".toList "False".toList] := by decide +kernel
      rw [hone, List.filterMap_append, List.filterMap_append, updateS_append]
      have u1 : updateS (updateS [] (L.filterMap kwOf)) ([ChkParam.kw "default".toList "False".toList].filterMap kwOf) =
          setS "default".toList "False".toList (updateS [] (L.filterMap kwOf)) := rfl
      rw [u1, filter_setS _ _ _ hd, lookupS_setS, if_pos rfl]
      simp [posOf]
    · rw [if_neg hargs]
      rw [not_or, not_not, not_not] at hargs
      have hkw : L.filterMap kwOf = [] := by
        apply updateS_nil
        have hd2 := hd
        generalize updateS [] (L.filterMap kwOf) = d at hargs hd2
        cases d with
        | nil => rfl
        | cons p d =>
          exfalso
          simp only [lookupS] at hd2
          by_cases hk : "default".toList = p.1
          · rw [if_pos hk] at hd2; cases hd2
          · have hk' : p.1 ≠ "default".toList := fun e => hk e.symm
            have := hargs.2
            rw [List.filter_cons, if_pos (decide_eq_true hk')] at this
            cases this
      have hL0 : paramsOf g = [] := kwOf_nil _ hargs.1 hkw
      have hnew : check ++ "(default=False)".toList = c :: m ++ '(' :: (g ++ ")(default=False".toList) ++ [')'] := by
        rw [e]
        simp only [List.append_assoc, List.cons_append, List.nil_append]
        rfl
      rw [hnew, parse_form c m _ hm, paramsOf_accident g hL0, hargs.1, hkw]
      rfl

/-- **C164** (other options): the specification of an option that is not a boolean, or that has a default, is left as it is. -/
theorem C164_other (check : Str) (h : (parseCheck check).name ≠ "boolean".toList ∨ (parseCheck check).dflt ≠ none) : setBoolFalse check = check := by
  unfold setBoolFalse
  dsimp only
  rw [if_neg]
  rintro ⟨h1, h2⟩
  rcases h with h | h
  · exact h h1
  · exact h h2

/-- ... so that initialising a manager twice with the same specifications changes nothing more. -/
theorem C164_idempotent (check : Str) (hp : PlainCheck check) : setBoolFalse (setBoolFalse check) = setBoolFalse check := by
  by_cases h : (parseCheck check).name = "boolean".toList ∧ (parseCheck check).dflt = none
  · apply C164_other
    right
    rw [C164_boolean check hp h.1 h.2]
    simp
  · have h' : (parseCheck check).name ≠ "boolean".toList ∨ (parseCheck check).dflt ≠ none := by
      by_cases h1 : (parseCheck check).name = "boolean".toList
      · exact Or.inr (fun h2 => h ⟨h1, h2⟩)
      · exact Or.inl h1
    rw [C164_other check h', C164_other check h']

mutual
theorem walk_getT {V W : Type} (f : V → W) (t : CT V) (r : List Str) : getT r (walkT f t) = (getT r t).map (walkT f) := by
  match t, r with
  | t, [] => rfl
  | .val v, _ :: _ => rfl
  | .sec l, k :: q =>
    show (lookupS k (walkL f l)).bind (getT q) = ((lookupS k l).bind (getT q)).map (walkT f)
    exact walk_lookup f l k q
theorem walk_lookup {V W : Type} (f : V → W) (l : List (Str × CT V)) (k : Str) (q : List Str) :
    (lookupS k (walkL f l)).bind (getT q) = ((lookupS k l).bind (getT q)).map (walkT f) := by
  match l with
  | [] => rfl
  | (a, t) :: rest =>
    simp only [walkL, lookupS]
    by_cases h : k = a
    · rw [if_pos h, if_pos h]
      exact walk_getT f t q
    · rw [if_neg h, if_neg h]
      exact walk_lookup f rest k q
end

theorem walk_leaf {V W : Type} (f : V → W) (l : List (Str × CT V)) (r : List Str) : leafAt r (.sec (walkL f l)) = (leafAt r (.sec l)).map f := by
  unfold leafAt
  have := walk_getT f (.sec l) r
  rw [show walkT f (.sec l) = .sec (walkL f l) from rfl] at this
  rw [this]
  cases getT r (.sec l) with
  | none => rfl
  | some t => cases t <;> rfl

/-- the options kept by the filter of the manager -/
def filterKeeps (flt : Option Filt) (fdflt : Bool) (q : List Str) : Bool :=
  match flt with
  | none => true
  | some f => pathKept f.d f.e f.items fdflt q

/-- **C164** (specifications): the manager has the options of the specifications that its filter keeps, and no others, with their
specifications, where booleans get a default (unless `boolean_false` is false). -/
theorem C164_specs (boolFalse : Bool) (flt : Option Filt) (fdflt : Bool) (arg : SpecsArg) (q : List Str) (hq : q ≠ []) :
    leafAt q (.sec (initSpecs boolFalse flt fdflt arg)) =
      if filterKeeps flt fdflt q = true then (leafAt q (.sec arg.tree)).map (if boolFalse then setBoolFalse else id) else none := by
  have h1 : leafAt q (.sec (filterSpecs flt fdflt arg.tree)) = if filterKeeps flt fdflt q = true then leafAt q (.sec arg.tree) else none := by
    cases flt with
    | none => rfl
    | some f => exact C59_filter_section f.d f.e f.items fdflt arg.tree q hq
  unfold initSpecs
  cases boolFalse with
  | true =>
    simp only [if_true]
    rw [walk_leaf, h1]
    split <;> rfl
  | false =>
    simp only [Bool.false_eq_true, if_false]
    rw [h1, Option.map_id]
    rfl

/-! ## C165 -/

/-- **C165** (files): specifications read in a file are not modified by the initialisation. -/
theorem C165_file (boolFalse : Bool) (flt : Option Filt) (fdflt : Bool) (t : List (Str × CT Str)) : initGiven boolFalse flt fdflt (.file t) = .file t := rfl

/-- **C165 is violated** by a `ConfigObj`: the booleans without default of the object given get the default `False`. -/
theorem C165_boolean_violated (flt : Option Filt) (fdflt : Bool) (t : List (Str × CT Str)) (q : List Str) (hq : q ≠ []) (hk : filterKeeps flt fdflt q = true)
    (h : leafAt q (.sec t) = some "boolean".toList) :
    leafAt q (.sec (initGiven true flt fdflt (.obj t)).tree) = some "boolean(default=False)".toList := by
  show leafAt q (.sec (initSpecs true flt fdflt (.obj t))) = _
  rw [C164_specs true flt fdflt (.obj t) q hq, if_pos hk]
  show (leafAt q (.sec t)).map setBoolFalse = _
  rw [h]
  decide +kernel

/-- **C165 is violated** by a filter: the options that it does not keep are removed of the object given. -/
theorem C165_filter_violated (boolFalse : Bool) (f : Filt) (fdflt : Bool) (t : List (Str × CT Str)) (q : List Str) (hq : q ≠ [])
    (hk : pathKept f.d f.e f.items fdflt q = false) : leafAt q (.sec (initGiven boolFalse (some f) fdflt (.obj t)).tree) = none := by
  show leafAt q (.sec (initSpecs boolFalse (some f) fdflt (.obj t))) = _
  rw [C164_specs boolFalse (some f) fdflt (.obj t) q hq, if_neg]
  show ¬ pathKept f.d f.e f.items fdflt q = true
  rw [hk]
  simp

/-- **C165**, partial: without a filter, a `ConfigObj` whose booleans have defaults keeps its options and their specifications. -/
theorem C165_partial (boolFalse : Bool) (fdflt : Bool) (t : List (Str × CT Str))
    (h : boolFalse = false ∨ ∀ q c, leafAt q (.sec t) = some c → (parseCheck c).name ≠ "boolean".toList ∨ (parseCheck c).dflt ≠ none) :
    SameOptions (initGiven boolFalse none fdflt (.obj t)).tree t := by
  intro q
  show leafAt q (.sec (initSpecs boolFalse none fdflt (.obj t))) = _
  cases q with
  | nil => rfl
  | cons k q =>
    rw [C164_specs boolFalse none fdflt (.obj t) (k :: q) (by simp), if_pos (show filterKeeps none fdflt (k :: q) = true from rfl)]
    show (leafAt (k :: q) (.sec t)).map _ = leafAt (k :: q) (.sec t)
    cases hc : leafAt (k :: q) (.sec t) with
    | none => rfl
    | some c =>
      rcases h with h | h
      · simp [h]
      · cases boolFalse
        · rfl
        · simp only [if_true, Option.map_some, C164_other c (h _ _ hc)]

/-! ## Concrete cases -/

example : setBoolFalse "boolean".toList = "boolean(default=False)".toList ∧ setBoolFalse "boolean(default=True)".toList = "boolean(default=True)".toList ∧
    setBoolFalse "boolean(a, b=2)".toList = "boolean(a, b=2, default=False)".toList ∧ setBoolFalse "integer(min=0)".toList = "integer(min=0)".toList ∧
    setBoolFalse "boolean()".toList = "boolean()(default=False)".toList := by decide +kernel

example : parseCheck "integer(1, min = 0,max=3, default=2)".toList =
    ⟨"integer".toList, ["1".toList], [("min".toList, "0".toList), ("max".toList, "3".toList)], some "2".toList⟩ := by decide +kernel

example : PlainCheck "boolean".toList ∧ PlainCheck "boolean(a, b=2)".toList := ⟨Or.inl (by decide), Or.inr ⟨"boolean(a, b=2".toList, rfl⟩⟩

example : (parseCheck "boolean(a, b=2)".toList).name = "boolean".toList ∧ (parseCheck "boolean(a, b=2)".toList).dflt = none := by decide +kernel

example : filterKeeps (some ⟨none, none, [("a".toList, .flag true)]⟩) false ["a".toList] = true ∧ pathKept none none [("a".toList, .flag true)] false ["b".toList] = false := by decide +kernel

end Xoa
