import Verif.Validators2

/-! # Validation of dates, durations, expressions and dictionaries (C146, C147) -/

namespace Xoa

/-- **C146** (no value): `None`, as such or as a text, is `None` for all the validators of dates, durations and dictionaries. -/
theorem C146_none {F T U D : Type} (ts : VdVal → Option T) (py : T → U) (toFloat : Str → Option F) (td : F → Str → Option T)
    (ar : Str → Str → Str → Option T) (strp : Str → Option T) (dflt : VdVal) (ev : Str → EvOut D) (empty : D) (ex : Str → Str) (expand : Bool)
    (v : VdVal) (hv : v = .none ∨ v = .text "None".toList) :
    isTimestamp ts v = .ok none ∧ isDatetime ts py v = .ok none ∧ isDatetime64 ts py v = .ok none ∧ isTimedelta toFloat td v = .ok none ∧
    isDaterange (T := T) v = .ok none ∧ isDaterange64 ar v = .ok none ∧ isPydatetime strp dflt v = .ok none ∧ isDict ev empty v = .ok none ∧
    isPath ex expand dflt v = .none := by
  have h : strNone v = true := by rcases hv with rfl | rfl <;> rfl
  have hd : isDict ev empty v = .ok none := by rcases hv with rfl | rfl <;> simp [isDict]
  simp [isTimestamp, isDatetime, isDatetime64, isTimedelta, isDaterange, isDaterange64, isPydatetime, isPath, h, hd, Except.map]

/-- what the validators of dates are to do with a value other than `None`: give what the library makes of it, or a validation error -/
def Validates {T : Type} (lib : Option T) (r : Except DvErr (Option T)) : Prop :=
  (∀ t, lib = some t → r = .ok (some t)) ∧ (lib = none → r = .error .vdt)

theorem strNone_false (v : VdVal) (h1 : v ≠ .none) (h2 : v ≠ .text "None".toList) : strNone v = false := by
  simp only [strNone, Bool.or_eq_false_iff, decide_eq_false_iff_not]
  exact ⟨h1, h2⟩

/-- **C146** (dates): a date that the library understands is given, as a date of pandas, of python or of numpy. -/
theorem C146_date {T U : Type} (ts : VdVal → Option T) (f : T → U) (v : VdVal) (h1 : v ≠ .none) (h2 : v ≠ .text "None".toList) (t : T) (ht : ts v = some t) :
    isTimestamp ts v = .ok (some t) ∧ isDatetime ts f v = .ok (some (f t)) ∧ isDatetime64 ts f v = .ok (some (f t)) := by
  have := strNone_false v h1 h2
  simp [isTimestamp, isDatetime, isDatetime64, this, ht, orForeign, Except.map]

/-- **C146** (durations and ranges): a number and a unit give the duration, a start, an end and a unit the range of numpy. -/
theorem C146_duration {F T : Type} (toFloat : Str → Option F) (td : F → Str → Option T) (ar : Str → Str → Str → Option T) :
    (∀ (a u : Str) (x : F) (t : T), toFloat a = some x → td x u = some t → isTimedelta toFloat td (.list [a, u]) = .ok (some t)) ∧
    (∀ (a b u : Str) (t : T), ar a b u = some t → isDaterange64 ar (.list [a, b, u]) = .ok (some t)) := by
  constructor
  · intro a u x t h1 h2
    have : strNone (.list [a, u]) = false := strNone_false _ (by simp) (by simp)
    simp [isTimedelta, this, h1, h2, orForeign]
  · intro a b u t h
    have : strNone (.list [a, b, u]) = false := strNone_false _ (by simp) (by simp)
    simp [isDaterange64, this, h, orForeign]

/-- **C146** (wrong number of items): validation errors. -/
theorem C146_items {F T : Type} (toFloat : Str → Option F) (td : F → Str → Option T) (ar : Str → Str → Str → Option T) (l : List Str) :
    (l.length ≠ 2 → isTimedelta toFloat td (.list l) = .error .vdt) ∧ (l.length ≠ 3 → isDaterange64 ar (.list l) = .error .vdt) ∧
    (l.length ≠ 3 → l.length ≠ 4 → isDaterange (T := T) (.list l) = .error .vdt) := by
  have : strNone (.list l) = false := strNone_false _ (by simp) (by simp)
  refine ⟨?_, ?_, ?_⟩
  · intro h
    unfold isTimedelta
    rw [this]
    match l, h with
    | [], _ => rfl
    | [_], _ => rfl
    | [_, _], h => simp at h
    | _ :: _ :: _ :: _, _ => rfl
  · intro h
    unfold isDaterange64
    rw [this]
    match l, h with
    | [], _ => rfl
    | [_], _ => rfl
    | [_, _], _ => rfl
    | [_, _, _], h => simp at h
    | _ :: _ :: _ :: _ :: _, _ => rfl
  · intro h h'
    unfold isDaterange
    rw [this]
    match l, h, h' with
    | [], _, _ => rfl
    | [_], _, _ => rfl
    | [_, _], _, _ => rfl
    | [_, _, _], h, _ => simp at h
    | [_, _, _, _], _, h => simp at h
    | _ :: _ :: _ :: _ :: _ :: _, _, _ => rfl

/-- **C146** (dates with a format): a text is validated as it should, an empty one being the default one. -/
theorem C146_format {T : Type} (strp : Str → Option T) (dflt : VdVal) (s : Str) (h : s ≠ "None".toList) :
    (s ≠ [] → Validates (strp s) (isPydatetime strp dflt (.text s))) ∧
    (∀ d, dflt = .text d → Validates (strp d) (isPydatetime strp dflt (.text []))) := by
  constructor
  · intro h0
    have : strNone (.text s) = false := strNone_false _ (by simp) (by simpa using h)
    unfold Validates isPydatetime
    constructor
    · intro t ht; simp [this, h0, ht]
    · intro ht; simp [this, h0, ht]
  · rintro d rfl
    have : strNone (.text []) = false := rfl
    unfold Validates isPydatetime
    constructor
    · intro t ht; simp [this, ht]
    · intro ht; simp [this, ht]

/-- **C146 is violated** (errors): a date, a duration or a range that the library refuses is not a validation error: the exception of the
library goes through the validation. -/
theorem C146_error_violated {F T U : Type} (ts : VdVal → Option T) (f : T → U) (toFloat : Str → Option F) (td : F → Str → Option T)
    (ar : Str → Str → Str → Option T) :
    (∀ v, v ≠ .none → v ≠ .text "None".toList → ts v = none →
      isTimestamp ts v = .error .foreign ∧ isDatetime ts f v = .error .foreign ∧ isDatetime64 ts f v = .error .foreign) ∧
    (∀ a u, toFloat a = none → isTimedelta toFloat td (.list [a, u]) = .error .foreign) ∧
    (∀ a u x, toFloat a = some x → td x u = none → isTimedelta toFloat td (.list [a, u]) = .error .foreign) ∧
    (∀ a b u, ar a b u = none → isDaterange64 ar (.list [a, b, u]) = .error .foreign) := by
  refine ⟨?_, ?_, ?_, ?_⟩
  · intro v h1 h2 ht
    have := strNone_false v h1 h2
    simp [isTimestamp, isDatetime, isDatetime64, this, ht, orForeign, Except.map]
  · intro a u h
    have : strNone (.list [a, u]) = false := strNone_false _ (by simp) (by simp)
    simp [isTimedelta, this, h, orForeign]
  · intro a u x h1 h2
    have : strNone (.list [a, u]) = false := strNone_false _ (by simp) (by simp)
    simp [isTimedelta, this, h1, h2, orForeign]
  · intro a b u h
    have : strNone (.list [a, b, u]) = false := strNone_false _ (by simp) (by simp)
    simp [isDaterange64, this, h, orForeign]

/-- **C146 is violated** (ranges of pandas): no value but `None` is ever validated. -/
theorem C146_range_violated {T : Type} (v : VdVal) (t : T) : isDaterange v ≠ .ok (some t) := by
  unfold isDaterange
  split
  · simp
  · split <;> simp

/-- **C146 is violated** (durations of numpy): numpy makes no duration of a floating point number (`hnp`), so that no value but `None` is ever validated. -/
theorem C146_timedelta64_violated {F T : Type} (toFloat : Str → Option F) (np : F → Str → Option T) (hnp : ∀ x u, np x u = none) (v : VdVal) (t : T) :
    isTimedelta toFloat np v ≠ .ok (some t) := by
  unfold isTimedelta
  split
  · simp
  · split
    · rename_i a u _
      have : ((toFloat a).bind fun x => np x u) = none := by
        cases toFloat a with
        | none => rfl
        | some x => exact hnp x u
      rw [this]
      simp [orForeign]
    · simp

/-! ## C147: dictionaries, expressions and paths -/

/-- a text without blanks around it -/
def Trimmed (s : Str) : Prop := strip s = s

/-- a word: letters, digits and underscores -/
def IsWordStr (w : Str) : Prop := w ≠ [] ∧ ∀ c ∈ w, isWord c = true

theorem takeDrop_word (w r : Str) (hw : ∀ c ∈ w, isWord c = true) (hr : ∀ c, r.head? = some c → isWord c = false) :
    (w ++ r).takeWhile isWord = w ∧ (w ++ r).dropWhile isWord = r := by
  induction w with
  | nil =>
    cases r with
    | nil => simp
    | cons c r => simp [List.takeWhile_cons, List.dropWhile_cons, hr c rfl]
  | cons c w ih =>
    have hc := hw c (by simp)
    obtain ⟨i1, i2⟩ := ih (fun d hd => hw d (by simp [hd]))
    simp only [List.cons_append, List.takeWhile_cons, hc, if_true, i1, List.dropWhile_cons, i2, and_self]

theorem isDict_text {D : Type} (ev : Str → EvOut D) (empty : D) (s : Str) :
    isDict ev empty (.text s) = if s = "None".toList then .ok none else dictOfText ev empty s := rfl

/-- **C147** (settings): `name=value`, possibly with others after a comma, is read as the arguments of `dict`. -/
theorem C147_settings {D : Type} (ev : Str → EvOut D) (empty : D) (w v : Str) (hw : IsWordStr w) (hv : v ≠ []) (hb : ∀ c, v.head? = some c → isSpace c = false)
    (hn : '\n' ∉ v) (ht : Trimmed (w ++ '=' :: v)) (d : D) (hd : ev ("dict(".toList ++ (w ++ '=' :: v) ++ ")".toList) = .dict d) :
    isDict ev empty (.text (w ++ '=' :: v)) = .ok (some d) := by
  obtain ⟨c, w', rfl⟩ : ∃ c w', w = c :: w' := by
    cases w with
    | nil => exact absurd rfl hw.1
    | cons c w' => exact ⟨c, w', rfl⟩
  have heq : ∀ x, (('=' :: v) : Str).head? = some x → isWord x = false := by
    intro x hx
    simp only [List.head?_cons, Option.some.injEq] at hx
    subst hx
    decide
  obtain ⟨t1, t2⟩ := takeDrop_word (c :: w') ('=' :: v) hw.2 heq
  have hcall : looksCall (c :: w' ++ '=' :: v) = false := by
    unfold looksCall
    simp only [t2]
    simp
  have hacc : looksAcc (c :: w' ++ '=' :: v) = false := by
    have : c ≠ '{' := by
      rintro rfl
      exact absurd (hw.2 '{' (by simp)) (by decide)
    unfold looksAcc
    simp [this]
  have hset : looksSet (c :: w' ++ '=' :: v) = true := by
    have hd1 : ('=' :: v : Str).dropWhile isSpace = '=' :: v := by
      rw [List.dropWhile_cons, if_neg (by decide)]
    have hd2 : v.dropWhile isSpace = v := by
      cases v with
      | nil => rfl
      | cons a v => rw [List.dropWhile_cons, if_neg (by rw [hb a rfl]; decide)]
    unfold looksSet
    simp only [t1, t2, hd1, List.drop_succ_cons, List.drop_zero, hd2]
    simp [hv, hn]
  have hne : (c :: w' ++ '=' :: v) ≠ "None".toList := by
    intro h
    have : '=' ∈ "None".toList := by rw [← h]; simp
    revert this
    decide
  have htext : dictText (c :: w' ++ '=' :: v) = some ("dict(".toList ++ (c :: w' ++ '=' :: v) ++ ")".toList) := by
    unfold dictText
    rw [hcall, hacc, hset]
    rfl
  rw [isDict_text]
  rw [if_neg hne]
  unfold dictOfText
  rw [show strip (c :: w' ++ '=' :: v) = c :: w' ++ '=' :: v from ht, if_neg (by simp), htext, dictEval, hd]

/-- **C147** (expressions between braces): evaluated as they are. -/
theorem C147_braces {D : Type} (ev : Str → EvOut D) (empty : D) (v : Str) (hn : '\n' ∉ v) (ht : Trimmed ('{' :: v ++ ['}'])) (d : D)
    (hd : ev ('{' :: v ++ ['}']) = .dict d) : isDict ev empty (.text ('{' :: v ++ ['}'])) = .ok (some d) := by
  have hacc : looksAcc ('{' :: v ++ ['}']) = true := by
    have h1 : ('{' :: v ++ ['}']).getLast? = some '}' := by
      rw [List.getLast?_append]; rfl
    have h2 : ('{' :: v ++ ['}']).contains '\n' = false := by simp [hn]
    have h3 : ('{' :: v ++ ['}']).head? = some '{' := rfl
    unfold looksAcc
    simp only [h1, h2, h3]
    simp
  have hne : ('{' :: v ++ ['}']) ≠ "None".toList := by
    intro h
    have : '{' ∈ "None".toList := by rw [← h]; simp
    revert this
    decide
  have htext : dictText ('{' :: v ++ ['}']) = some ('{' :: v ++ ['}']) := by
    unfold dictText
    rw [hacc]
    simp
  rw [isDict_text]
  rw [if_neg hne]
  unfold dictOfText
  rw [show strip ('{' :: v ++ ['}']) = '{' :: v ++ ['}'] from ht, if_neg (by simp), htext, dictEval, hd]

/-- **C147** (calls): `dict(...)`, `OrderedDict(...)` and other calls are evaluated as they are. -/
theorem C147_call {D : Type} (ev : Str → EvOut D) (empty : D) (w v : Str) (hw : IsWordStr w) (hn : '\n' ∉ v) (ht : Trimmed (w ++ '(' :: v ++ [')'])) (d : D)
    (hd : ev (w ++ '(' :: v ++ [')']) = .dict d) : isDict ev empty (.text (w ++ '(' :: v ++ [')'])) = .ok (some d) := by
  have heq : ∀ x, (('(' :: v ++ [')']) : Str).head? = some x → isWord x = false := by
    intro x hx
    simp only [List.cons_append, List.head?_cons, Option.some.injEq] at hx
    subst hx
    decide
  have hassoc : w ++ '(' :: v ++ [')'] = w ++ ('(' :: v ++ [')']) := by simp
  obtain ⟨t1, t2⟩ := takeDrop_word w ('(' :: v ++ [')']) hw.2 heq
  rw [hassoc] at ht hd ⊢
  have hcall : looksCall (w ++ ('(' :: v ++ [')'])) = true := by
    have h0 : (w.isEmpty) = false := by
      cases w with
      | nil => exact absurd rfl hw.1
      | cons => rfl
    have h1 : ('(' :: v ++ [')']).getLast? = some ')' := by
      rw [List.getLast?_append]; rfl
    have h2 : ('(' :: v ++ [')']).contains '\n' = false := by simp [hn]
    have h3 : 2 ≤ ('(' :: v ++ [')']).length := by simp
    unfold looksCall
    simp only [t1, t2, h0, h1, h2, h3]
    simp
  have hne : (w ++ ('(' :: v ++ [')'])) ≠ "None".toList := by
    intro h
    have : '(' ∈ "None".toList := by rw [← h]; simp
    revert this
    decide
  have htext : dictText (w ++ ('(' :: v ++ [')'])) = some (w ++ ('(' :: v ++ [')'])) := by
    unfold dictText
    rw [hcall]
    rfl
  rw [isDict_text]
  rw [if_neg hne]
  unfold dictOfText
  rw [show strip (w ++ ('(' :: v ++ [')'])) = w ++ ('(' :: v ++ [')']) from ht, if_neg (by simp), htext, dictEval, hd]

/-- **C147** (errors): whatever the text, and whatever its evaluation does, the only failure is a validation error, and the only results are an
empty dictionary for a blank text and dictionaries that the evaluation gives. -/
theorem C147_errors {D : Type} (ev : Str → EvOut D) (empty : D) (v : VdVal) :
    isDict ev empty v ≠ .error .foreign ∧
    (∀ d, isDict ev empty v = .ok (some d) → d = empty ∨ ∃ t, ev t = .dict d) := by
  have hev : ∀ t, dictEval ev t ≠ .error .foreign ∧ ∀ d, dictEval ev t = .ok (some d) → ∃ t, ev t = .dict d := by
    intro t
    cases t with
    | none => exact ⟨by simp [dictEval], by simp [dictEval]⟩
    | some t =>
      cases h : ev t with
      | raises => simp [dictEval, h]
      | other => simp [dictEval, h]
      | dict d =>
        refine ⟨by simp [dictEval, h], ?_⟩
        intro d' hd'
        simp only [dictEval, h, Except.ok.injEq, Option.some.injEq] at hd'
        exact ⟨t, by rw [h, hd']⟩
  have htx : ∀ s, dictOfText ev empty s ≠ .error .foreign ∧ ∀ d, dictOfText ev empty s = .ok (some d) → d = empty ∨ ∃ t, ev t = .dict d := by
    intro s
    unfold dictOfText
    split
    · refine ⟨by simp, ?_⟩
      intro d hd
      simp only [Except.ok.injEq, Option.some.injEq] at hd
      exact Or.inl hd.symm
    · exact ⟨(hev _).1, fun d hd => Or.inr ((hev _).2 d hd)⟩
  refine ⟨?_, ?_⟩
  · cases v with
    | none => simp [isDict]
    | text s => rw [isDict_text]; split; simp; exact (htx s).1
    | list l => exact (htx _).1
  · intro d hd
    cases v with
    | none => simp [isDict] at hd
    | text s =>
      rw [isDict_text] at hd
      split at hd
      · simp at hd
      · exact (htx s).2 d hd
    | list l => exact (htx _).2 d hd

/-- a call: a word, then something between parentheses, on one line -/
def FormCall (s : Str) : Prop := ∃ w v, IsWordStr w ∧ '\n' ∉ v ∧ s = w ++ '(' :: v ++ [')']

/-- something between braces, on one line -/
def FormBraces (s : Str) : Prop := ∃ v, '\n' ∉ v ∧ s = '{' :: v ++ ['}']

/-- a setting: a word, an equal sign, possibly with blanks around it, then something on one line -/
def FormSet (s : Str) : Prop :=
  ∃ w b b' v, IsWordStr w ∧ (∀ c ∈ b, isSpace c = true) ∧ (∀ c ∈ b', isSpace c = true) ∧ v ≠ [] ∧ (∀ c, v.head? = some c → isSpace c = false) ∧
    '\n' ∉ v ∧ s = w ++ b ++ '=' :: (b' ++ v)

theorem takeWhile_isWord (s : Str) : ∀ c ∈ s.takeWhile isWord, isWord c = true := by
  intro c hc
  have := List.all_takeWhile (p := isWord) (l := s)
  exact List.all_eq_true.1 this c hc

theorem isEmpty_isWord (s : Str) (h : (s.takeWhile isWord).isEmpty = false) : IsWordStr (s.takeWhile isWord) :=
  And.intro (by intro hc; rw [hc] at h; simp at h) (takeWhile_isWord s)

/-- between a first and a last character -/
theorem between (r : Str) (a z : Char) (h1 : r.head? = some a) (h2 : 2 ≤ r.length) (h3 : r.getLast? = some z) : ∃ v, r = a :: v ++ [z] := by
  cases r with
  | nil => cases h1
  | cons x t =>
    simp only [List.head?_cons, Option.some.injEq] at h1
    subst h1
    have ht : t ≠ [] := by rintro rfl; simp at h2
    have hz : t.getLast? = some z := by rw [← h3]; cases t with
      | nil => exact absurd rfl ht
      | cons y t => rfl
    obtain ⟨v, hv⟩ := List.getLast?_eq_some_iff.1 hz
    exact ⟨v, by rw [hv]; rfl⟩

theorem looksCall_iff (s : Str) : looksCall s = true ↔ FormCall s := by
  constructor
  · intro h
    unfold looksCall at h
    simp only [Bool.and_eq_true, decide_eq_true_eq, Bool.not_eq_true'] at h
    obtain ⟨⟨⟨⟨h1, h2⟩, h3⟩, h4⟩, h5⟩ := h
    obtain ⟨v, hv⟩ := between _ _ _ h2 h3 h4
    refine ⟨s.takeWhile isWord, v, isEmpty_isWord s h1, ?_, ?_⟩
    · rw [hv] at h5
      intro hc
      simp [hc] at h5
    · conv_lhs => rw [← List.takeWhile_append_dropWhile (p := isWord) (l := s), hv]
      simp
  · rintro ⟨w, v, hw, hn, rfl⟩
    have heq : ∀ x, (('(' :: v ++ [')']) : Str).head? = some x → isWord x = false := by
      intro x hx
      simp only [List.cons_append, List.head?_cons, Option.some.injEq] at hx
      subst hx
      decide
    obtain ⟨t1, t2⟩ := takeDrop_word w ('(' :: v ++ [')']) hw.2 heq
    have h0 : (w.isEmpty) = false := by
      cases w with
      | nil => exact absurd rfl hw.1
      | cons => rfl
    have h1 : ('(' :: v ++ [')']).getLast? = some ')' := by
      rw [List.getLast?_append]; rfl
    have h2 : ('(' :: v ++ [')']).contains '\n' = false := by simp [hn]
    have h3 : 2 ≤ ('(' :: v ++ [')']).length := by simp
    rw [show w ++ '(' :: v ++ [')'] = w ++ ('(' :: v ++ [')']) by simp]
    unfold looksCall
    simp only [t1, t2, h0, h1, h2, h3]
    simp

theorem looksAcc_iff (s : Str) : looksAcc s = true ↔ FormBraces s := by
  constructor
  · intro h
    unfold looksAcc at h
    simp only [Bool.and_eq_true, decide_eq_true_eq, Bool.not_eq_true'] at h
    obtain ⟨⟨⟨h2, h3⟩, h4⟩, h5⟩ := h
    obtain ⟨v, rfl⟩ := between _ _ _ h2 h3 h4
    refine ⟨v, ?_, rfl⟩
    intro hc
    simp [hc] at h5
  · rintro ⟨v, hn, rfl⟩
    have h1 : ('{' :: v ++ ['}']).getLast? = some '}' := by
      rw [List.getLast?_append]; rfl
    have h2 : ('{' :: v ++ ['}']).contains '\n' = false := by simp [hn]
    have h3 : ('{' :: v ++ ['}']).head? = some '{' := rfl
    unfold looksAcc
    simp only [h1, h2, h3]
    simp

theorem blanks_drop (b r : Str) (hb : ∀ c ∈ b, isSpace c = true) (hr : ∀ c, r.head? = some c → isSpace c = false) : (b ++ r).dropWhile isSpace = r := by
  induction b with
  | nil =>
    cases r with
    | nil => rfl
    | cons a r => rw [List.nil_append, List.dropWhile_cons, if_neg (by rw [hr a rfl]; decide)]
  | cons a b ih =>
    rw [List.cons_append, List.dropWhile_cons, if_pos (hb a (by simp))]
    exact ih fun c hc => hb c (by simp [hc])

theorem space_not_word (c : Char) (h : isSpace c = true) : isWord c = false := by
  unfold isSpace at h
  simp only [Bool.or_eq_true, decide_eq_true_eq] at h
  rcases h with ((((rfl | rfl) | rfl) | rfl) | rfl) | rfl <;> decide

theorem looksSet_iff (s : Str) : looksSet s = true ↔ FormSet s := by
  constructor
  · intro h
    unfold looksSet at h
    simp only [Bool.and_eq_true, decide_eq_true_eq, Bool.not_eq_true'] at h
    obtain ⟨⟨⟨h1, h2⟩, h3⟩, h4⟩ := h
    obtain ⟨r, hr⟩ : ∃ r, (s.dropWhile isWord).dropWhile isSpace = '=' :: r := by
      cases hx : (s.dropWhile isWord).dropWhile isSpace with
      | nil => rw [hx] at h2; cases h2
      | cons a r => rw [hx] at h2; simp only [List.head?_cons, Option.some.injEq] at h2; exact ⟨r, by rw [h2]⟩
    rw [hr] at h3 h4
    simp only [List.drop_succ_cons, List.drop_zero] at h3 h4
    refine ⟨s.takeWhile isWord, (s.dropWhile isWord).takeWhile isSpace, r.takeWhile isSpace, r.dropWhile isSpace, isEmpty_isWord s h1, ?_, ?_, ?_, ?_, ?_, ?_⟩
    · intro c hc; exact List.all_eq_true.1 (List.all_takeWhile (p := isSpace) (l := s.dropWhile isWord)) c hc
    · intro c hc; exact List.all_eq_true.1 (List.all_takeWhile (p := isSpace) (l := r)) c hc
    · intro hc; rw [hc] at h3; cases h3
    · intro c hc
      have := List.head?_dropWhile_not isSpace r
      rw [hc] at this
      simpa using this
    · intro hc
      have : (r.dropWhile isSpace).contains '\n' = true := List.contains_iff_mem.2 hc
      rw [this] at h4; cases h4
    · rw [List.takeWhile_append_dropWhile, ← hr, List.append_assoc, List.takeWhile_append_dropWhile, List.takeWhile_append_dropWhile]
  · rintro ⟨w, b, b', v, hw, hb, hb', hv, hv1, hn, rfl⟩
    have heq : ∀ x, (b ++ '=' :: (b' ++ v) : Str).head? = some x → isWord x = false := by
      intro x hx
      cases b with
      | nil =>
        simp only [List.nil_append, List.head?_cons, Option.some.injEq] at hx
        subst hx; decide
      | cons y b =>
        simp only [List.cons_append, List.head?_cons, Option.some.injEq] at hx
        subst hx; exact space_not_word _ (hb _ (by simp))
    obtain ⟨t1, t2⟩ := takeDrop_word w (b ++ '=' :: (b' ++ v)) hw.2 heq
    have d1 := blanks_drop b ('=' :: (b' ++ v)) hb (by intro c hc; simp only [List.head?_cons, Option.some.injEq] at hc; subst hc; decide)
    have d2 := blanks_drop b' v hb' hv1
    rw [List.append_assoc]
    unfold looksSet
    simp only [t1, t2, d1, List.drop_succ_cons, List.drop_zero, d2]
    simp [hv, hn, hw.1]

/-- what the evaluation of `t` gives: the dictionary, and a validation error if it fails or gives something else -/
def Evaluated {D : Type} (ev : Str → EvOut D) (t : Str) (r : Except DvErr (Option D)) : Prop :=
  (∀ d, ev t = .dict d → r = .ok (some d)) ∧ (ev t = .raises → r = .error .vdt) ∧ (ev t = .other → r = .error .vdt)

theorem dictEval_some {D : Type} (ev : Str → EvOut D) (t : Str) : Evaluated ev t (dictEval ev (some t)) := by
  refine ⟨?_, ?_, ?_⟩
  · intro d h; simp [dictEval, h]
  · intro h; simp [dictEval, h]
  · intro h; simp [dictEval, h]

/-- **C147** (forms): exactly the calls, the texts between braces and the settings are evaluated, blanks around them ignored: calls and braces as
they are, settings as arguments of `dict`; any other text that is not blank is refused with a validation error. -/
theorem C147_forms {D : Type} (ev : Str → EvOut D) (empty : D) (s : Str) (hs : s ≠ "None".toList) (h0 : strip s ≠ []) :
    (FormCall (strip s) ∨ FormBraces (strip s) → Evaluated ev (strip s) (isDict ev empty (.text s))) ∧
    (¬ (FormCall (strip s) ∨ FormBraces (strip s)) → FormSet (strip s) →
      Evaluated ev ("dict(".toList ++ strip s ++ ")".toList) (isDict ev empty (.text s))) ∧
    (¬ FormCall (strip s) → ¬ FormBraces (strip s) → ¬ FormSet (strip s) → isDict ev empty (.text s) = .error .vdt) := by
  have e : isDict ev empty (.text s) = dictEval ev (dictText (strip s)) := by
    rw [isDict_text, if_neg hs]
    unfold dictOfText
    rw [if_neg h0]
  rw [e]
  unfold dictText
  refine ⟨?_, ?_, ?_⟩
  · intro h
    rw [if_pos (by rw [Bool.or_eq_true, looksCall_iff, looksAcc_iff]; exact h)]
    exact dictEval_some ev _
  · intro h h'
    rw [if_neg (by rw [Bool.or_eq_true, looksCall_iff, looksAcc_iff]; exact h), if_pos ((looksSet_iff _).2 h')]
    exact dictEval_some ev _
  · intro h1 h2 h3
    rw [if_neg (by rw [Bool.or_eq_true, looksCall_iff, looksAcc_iff]; exact fun h => h.elim h1 h2), if_neg (by rw [looksSet_iff]; exact h3)]
    rfl

theorem joinComma_eq (l : List Str) : joinComma l = List.intercalate ", ".toList l := by
  induction l with
  | nil => rfl
  | cons a l ih =>
    cases l with
    | nil => simp [joinComma, List.intercalate]
    | cons b l =>
      show a ++ ", ".toList ++ joinComma (b :: l) = _
      rw [ih]
      simp [List.intercalate, List.intersperse]

/-- **C147** (lists): a value that a file splits at its commas, in any number of parts, is read as the whole text. -/
theorem C147_list {D : Type} (ev : Str → EvOut D) (empty : D) (l : List Str) (h : List.intercalate ", ".toList l ≠ "None".toList) :
    isDict ev empty (.list l) = isDict ev empty (.text (List.intercalate ", ".toList l)) := by
  show dictOfText ev empty (joinComma l) = if _ then _ else _
  rw [if_neg h, joinComma_eq]

/-- **C147** (expressions): the value of an expression, or the text itself, and never an exception unless asked. -/
theorem C147_eval {T : Type} (ev : VdVal → Option T) (v : VdVal) :
    (∀ u t, ev v = some t → isEval ev u v = .ok (.inl t)) ∧ (ev v = none → isEval ev true v = .ok (.inr v) ∧ isEval ev false v = .error .vdt) := by
  constructor
  · intro u t h; simp [isEval, h]
  · intro h; simp [isEval, h]

/-- **C147** (paths): a path is given as it is, or expanded when asked; an empty path is the default one. -/
theorem C147_path (ex : Str → Str) (expand : Bool) (d s : Str) (hs : s ≠ []) (hn : s ≠ "None".toList) :
    isPath ex expand (.text d) (.text s) = .text (if expand = true then ex s else s) ∧
    isPath ex expand (.text d) (.text []) = .text (if expand = true then ex d else d) := by
  have : strNone (.text s) = false := strNone_false _ (by simp) (by simpa using hn)
  constructor
  · have e : (if VdVal.text s = .text [] then VdVal.text d else .text s) = .text s := if_neg (by simpa using hs)
    unfold isPath
    rw [this, e]
    rfl
  · rfl

/-- the hypotheses are met: a date of four digits, a list of two items with or without a number, and the four forms of dictionaries -/
example : let ts : VdVal → Option Nat := fun v => match v with | .text s => if s.length = 4 then some 1 else none | _ => none
    isTimestamp ts (.text "2000".toList) = .ok (some 1) ∧ isTimestamp ts (.text "20".toList) = .error .foreign ∧
    isTimedelta (fun s => if s = "1".toList then some 1 else none) (fun (x : Nat) _ => some x) (.list ["1".toList, "D".toList]) = .ok (some 1) ∧
    isTimedelta (fun s => if s = "1".toList then some 1 else none) (fun (x : Nat) _ => some x) (.list ["a".toList, "D".toList]) = .error .foreign ∧
    isDict (fun s => EvOut.dict s) [] (.text " a = 2, b=3".toList) = .ok (some "dict(a = 2, b=3)".toList) ∧
    isDict (fun s => EvOut.dict s) [] (.list ["a=2".toList, "b=3".toList]) = .ok (some "dict(a=2, b=3)".toList) ∧
    isDict (fun s => EvOut.dict s) [] (.text "{1: 2} ".toList) = .ok (some "{1: 2}".toList) ∧
    isDict (fun s => EvOut.dict s) [] (.text "OrderedDict(b=2)".toList) = .ok (some "OrderedDict(b=2)".toList) ∧
    isDict (fun s => EvOut.dict s) [] (.text "a b".toList) = .error .vdt ∧
    Trimmed "a=2, b=3".toList ∧ IsWordStr "a_1".toList := by
  refine ⟨?_, ?_, ?_, ?_, ?_, ?_, ?_, ?_, ?_, ?_, ?_, ?_⟩
  all_goals first | decide +kernel | (unfold Trimmed; decide +kernel)

end Xoa
