import Verif.CfgRst
import Verif.CfgHelpProps
import Verif.SGLocFormatProps
import Mathlib.Data.List.Nodup
import Mathlib.Data.List.Perm.Lattice

/-! # Configurations in rst (C151) -/

namespace Xoa

/-- what there is to document in a configuration: the options and the sections, at any depth -/
inductive Documented : RSec → REntry → Prop
  | opt {opts secs} (k : Str) (c : Option Str) (it : List (Str × Str)) (h : (k, c, it) ∈ opts) : Documented (.mk opts secs) ⟨false, [], k, c, it⟩
  | sec {opts secs} (k : Str) (c : Option Str) (r : RSec) (h : (k, c, r) ∈ secs) : Documented (.mk opts secs) ⟨true, [], k, c, []⟩
  | sub {opts secs} (k : Str) (c : Option Str) (r : RSec) (h : (k, c, r) ∈ secs) (e : REntry) (he : Documented r e) :
      Documented (.mk opts secs) { e with path := k :: e.path }

/-- the options of a section have distinct names, and so have its sections, at any depth -/
inductive WfSec : RSec → Prop
  | mk (opts secs) (ho : (opts.map (·.1)).Nodup) (hs : (secs.map (·.1)).Nodup) (h : ∀ s ∈ secs, WfSec s.2.2) : WfSec (.mk opts secs)

theorem rwalk_eq (path : List Str) (opts : List (Str × Option Str × List (Str × Str))) (secs : List (Str × Option Str × RSec)) :
    rwalk path (.mk opts secs) = opts.map (fun o => (⟨false, path, o.1, o.2.1, o.2.2⟩ : REntry)) ++
      secs.flatMap (fun s => (⟨true, path, s.1, s.2.1, []⟩ : REntry) :: rwalk (path ++ [s.1]) s.2.2) := by
  rw [rwalk]
  congr 1
  rw [List.flatMap_subtype (g := fun s => (⟨true, path, s.1, s.2.1, []⟩ : REntry) :: rwalk (path ++ [s.1]) s.2.2) (by intros; rfl)]
  simp

theorem RSec.sizeOf_mem {opts : List (Str × Option Str × List (Str × Str))} {secs : List (Str × Option Str × RSec)} {s : Str × Option Str × RSec} (h : s ∈ secs) :
    sizeOf s.2.2 < sizeOf (RSec.mk opts secs) := by
  have h1 := List.sizeOf_lt_of_mem h
  have h2 : sizeOf s.2.2 < sizeOf s := by
    obtain ⟨a, b, c⟩ := s
    simp
    omega
  simp
  omega

theorem mem_rwalk (path : List Str) (r : RSec) (e : REntry) : e ∈ rwalk path r ↔ ∃ e', Documented r e' ∧ e = { e' with path := path ++ e'.path } := by
  induction hsz : sizeOf r using Nat.strong_induction_on generalizing path r e with
  | _ n ih =>
    obtain ⟨opts, secs⟩ := r
    subst hsz
    rw [rwalk_eq, List.mem_append, List.mem_map, List.mem_flatMap]
    constructor
    · rintro (⟨⟨k, c, it⟩, h, rfl⟩ | ⟨⟨k, c, r⟩, h, he⟩)
      · exact ⟨_, .opt k c it h, by simp⟩
      · rcases List.mem_cons.1 he with rfl | he
        · exact ⟨_, .sec k c r h, by simp⟩
        · have := RSec.sizeOf_mem (opts := opts) h
          obtain ⟨e', h1, rfl⟩ := (ih _ this (path ++ [k]) r e rfl).1 he
          exact ⟨_, .sub k c r h e' h1, by simp⟩
    · rintro ⟨e', h, rfl⟩
      cases h with
      | opt k c it h => exact Or.inl ⟨_, h, by simp⟩
      | sec k c r h => exact Or.inr ⟨_, h, by simp⟩
      | sub k c r h e' he =>
        have := RSec.sizeOf_mem (opts := opts) h
        refine Or.inr ⟨_, h, List.mem_cons_of_mem _ ?_⟩
        rw [ih _ this (path ++ [k]) r _ rfl]
        exact ⟨e', he, by simp⟩

/-- the identity of what is documented -/
def REntry.id (e : REntry) : Bool × List Str × Str := (e.isSec, e.path, e.key)

theorem rwalk_path (path : List Str) (r : RSec) (e : REntry) (h : e ∈ rwalk path r) : path <+: e.path := by
  obtain ⟨e', _, rfl⟩ := (mem_rwalk path r e).1 h
  exact ⟨e'.path, rfl⟩

theorem rwalk_nodup (path : List Str) (r : RSec) (hw : WfSec r) : ((rwalk path r).map REntry.id).Nodup := by
  induction hsz : sizeOf r using Nat.strong_induction_on generalizing path r with
  | _ n ih =>
    obtain ⟨opts, secs⟩ := r
    subst hsz
    obtain ⟨_, _, ho, hs, h⟩ := hw
    rw [rwalk_eq, List.map_append, List.nodup_append]
    refine ⟨?_, ?_, ?_⟩
    · rw [List.map_map]
      have : (opts.map (REntry.id ∘ fun o => (⟨false, path, o.1, o.2.1, o.2.2⟩ : REntry))) = (opts.map (·.1)).map (fun k => (false, path, k)) := by
        rw [List.map_map]; rfl
      rw [this]
      exact ho.map (fun a b hab => by simpa using hab)
    · rw [List.map_flatMap, List.nodup_flatMap]
      refine ⟨?_, ?_⟩
      · intro s hm
        have := RSec.sizeOf_mem (opts := opts) hm
        rw [List.map_cons, List.nodup_cons]
        refine ⟨?_, ih _ this (path ++ [s.1]) s.2.2 (h s hm) rfl⟩
        intro hc
        obtain ⟨e, he, hid⟩ := List.mem_map.1 hc
        have hp := rwalk_path _ _ e he
        have : e.path = path := by
          have := congrArg (fun x => x.2.1) hid
          simpa [REntry.id] using this
        rw [this] at hp
        have := hp.length_le
        simp at this
      · have hs' : secs.Pairwise (fun a b => a.1 ≠ b.1) := by
          rw [← List.pairwise_map (f := fun s : Str × Option Str × RSec => s.1) (R := fun a b => a ≠ b)]
          exact hs
        refine hs'.imp ?_
        intro a b hab
        show List.Disjoint _ _
        intro x hx hy
        obtain ⟨e, he, rfl⟩ := List.mem_map.1 hx
        obtain ⟨f, hf, hid⟩ := List.mem_map.1 hy
        have h1 : (e.isSec = true ∧ e.path = path ∧ e.key = a.1) ∨ path ++ [a.1] <+: e.path := by
          rcases List.mem_cons.1 he with rfl | he
          · exact Or.inl ⟨rfl, rfl, rfl⟩
          · exact Or.inr (rwalk_path _ _ e he)
        have h2 : (f.isSec = true ∧ f.path = path ∧ f.key = b.1) ∨ path ++ [b.1] <+: f.path := by
          rcases List.mem_cons.1 hf with rfl | hf
          · exact Or.inl ⟨rfl, rfl, rfl⟩
          · exact Or.inr (rwalk_path _ _ f hf)
        have hp : f.path = e.path := by
          have := congrArg (fun x => x.2.1) hid
          simpa [REntry.id] using this
        have hk : f.key = e.key := by
          have := congrArg (fun x => x.2.2) hid
          simpa [REntry.id] using this
        rw [hp, hk] at h2
        have long : ∀ (p : List Str) (k : Str), ¬ (p ++ [k] <+: p) := by
          intro p k hc
          have := hc.length_le
          simp at this
        rcases h1 with h1 | h1 <;> rcases h2 with h2 | h2
        · exact hab (h1.2.2.symm.trans h2.2.2)
        · rw [h1.2.1] at h2; exact long _ _ h2
        · rw [h2.2.1] at h1; exact long _ _ h1
        · have := (List.prefix_of_prefix_length_le h1 h2 (by simp)).eq_of_length (by simp)
          simp only [List.append_cancel_left_eq, List.cons.injEq, and_true] at this
          exact hab this
    · intro x hx y hy hxy
      subst hxy
      obtain ⟨e, he, rfl⟩ := List.mem_map.1 hx
      obtain ⟨f, hf, hid⟩ := List.mem_map.1 hy
      obtain ⟨o, _, rfl⟩ := List.mem_map.1 he
      obtain ⟨s, _, hf⟩ := List.mem_flatMap.1 hf
      have h1 : f.isSec = false := by
        have := congrArg (fun x => x.1) hid
        simpa [REntry.id] using this
      have h2 : f.path = path := by
        have := congrArg (fun x => x.2.1) hid
        simpa [REntry.id] using this
      rcases List.mem_cons.1 hf with rfl | hf
      · simp at h1
      · have := (rwalk_path _ _ f hf).length_le
        rw [h2] at this
        simp at this

/-- **C151** (what is documented): the text is made of one entry for each option and each section, at any depth, and of nothing else. -/
theorem C151_entries (optrole secrole : Str) (cfg : RSec) :
    ∃ l : List REntry, cfg2rst optrole secrole cfg = joinLines ['\n'] (l.map (rentry optrole secrole)) ∧ (∀ e, e ∈ l ↔ Documented cfg e) ∧
      (WfSec cfg → (l.map fun e => (e.isSec, e.path, e.key)).Nodup) := by
  refine ⟨rwalk [] cfg, rfl, ?_, fun hw => rwalk_nodup [] cfg hw⟩
  intro e
  rw [mem_rwalk]
  constructor
  · rintro ⟨e', h, rfl⟩; simpa using h
  · intro h; exact ⟨e, h, by simp⟩

/-! ## names of the directives -/

/-- each name between brackets -/
def bracketed (names : List Str) : Str := names.flatMap fun n => '[' :: n ++ [']']

theorem brackets_eq (n : Str) (names : List Str) : brackets (n :: names) = bracketed (n :: names) := by
  unfold brackets
  induction names generalizing n with
  | nil => simp [joinLines, bracketed]
  | cons m names ih =>
    have := ih m
    simp only [joinLines, bracketed, List.flatMap_cons] at this ⊢
    have e : "[".toList ++ (n ++ "][".toList ++ joinLines "][".toList (m :: names)) ++ "]".toList =
        '[' :: n ++ [']'] ++ ("[".toList ++ joinLines "][".toList (m :: names) ++ "]".toList) := by simp
    rw [e, this]

/-- the name of an option or of a section as it is documented: `[sec1][sec2] opt` or `[sec1][sec2]` -/
theorem rname_eq (e : REntry) : rname e = if e.isSec then bracketed (e.path ++ [e.key]) else
    if e.path = [] then e.key else bracketed e.path ++ ' ' :: e.key := by
  unfold rname
  cases hp : e.path with
  | nil =>
    simp only [List.nil_append, List.isEmpty_nil, if_true]
    rw [brackets_eq]
  | cons n p =>
    rw [List.cons_append, brackets_eq, brackets_eq]
    simp

/-- a name without brackets and that does not begin with a blank -/
def BareName (n : Str) : Prop := '[' ∉ n ∧ ']' ∉ n ∧ n.head? ≠ some ' '

theorem bracketed_inj (a b : List Str) (u v : Str) (ha : ∀ n ∈ a, ']' ∉ n) (hb : ∀ n ∈ b, ']' ∉ n)
    (hu : u.head? ≠ some '[') (hv : v.head? ≠ some '[') (h : bracketed a ++ u = bracketed b ++ v) : a = b ∧ u = v := by
  induction a generalizing b with
  | nil =>
    cases b with
    | nil => exact ⟨rfl, h⟩
    | cons m b =>
      exfalso
      apply hu
      have : u = bracketed (m :: b) ++ v := h
      rw [this]
      simp [bracketed]
  | cons n a ih =>
    cases b with
    | nil =>
      exfalso
      apply hv
      have : v = bracketed (n :: a) ++ u := h.symm
      rw [this]
      simp [bracketed]
    | cons m b =>
      have h' : n ++ ']' :: (bracketed a ++ u) = m ++ ']' :: (bracketed b ++ v) := by
        simpa [bracketed] using h
      have hn := ha n (by simp)
      have hm := hb m (by simp)
      have key : ∀ (x y : Str) (s t : Str), ']' ∉ x → ']' ∉ y → x ++ ']' :: s = y ++ ']' :: t → x = y ∧ s = t := by
        intro x
        induction x with
        | nil =>
          intro y s t _ hy e
          cases y with
          | nil => exact ⟨rfl, by simpa using e⟩
          | cons c y =>
            simp only [List.nil_append, List.cons_append, List.cons.injEq] at e
            exact absurd (by rw [← e.1]; simp) hy
        | cons c x ihx =>
          intro y s t hx hy e
          cases y with
          | nil =>
            simp only [List.nil_append, List.cons_append, List.cons.injEq] at e
            exact absurd (by rw [e.1]; simp) hx
          | cons d y =>
            simp only [List.cons_append, List.cons.injEq] at e
            simp only [List.mem_cons, not_or] at hx hy
            obtain ⟨e1, e2⟩ := ihx y s t hx.2 hy.2 e.2
            exact ⟨by rw [e.1, e1], e2⟩
      obtain ⟨e1, e2⟩ := key n m _ _ hn hm h'
      obtain ⟨e3, e4⟩ := ih b (fun n hn => ha n (by simp [hn])) (fun n hn => hb n (by simp [hn])) e2
      exact ⟨by rw [e1, e3], e4⟩

/-- **C151** (names): two directives of the same name are about the same option or the same section, when the names have no bracket and do not begin with a
blank. -/
theorem C151_names (e f : REntry) (he : ∀ n ∈ e.path ++ [e.key], BareName n) (hf : ∀ n ∈ f.path ++ [f.key], BareName n)
    (hse : e.isSec = false → e.key ≠ []) (hsf : f.isSec = false → f.key ≠ [])
    (h : rname e = rname f) : e.isSec = f.isSec ∧ e.path = f.path ∧ e.key = f.key := by
  rw [rname_eq, rname_eq] at h
  have pe : ∀ n ∈ e.path, ']' ∉ n := fun n hn => (he n (by simp [hn])).2.1
  have pf : ∀ n ∈ f.path, ']' ∉ n := fun n hn => (hf n (by simp [hn])).2.1
  have ke := he e.key (by simp)
  have kf := hf f.key (by simp)
  have pe' : ∀ n ∈ e.path ++ [e.key], ']' ∉ n := fun n hn => (he n hn).2.1
  have pf' : ∀ n ∈ f.path ++ [f.key], ']' ∉ n := fun n hn => (hf n hn).2.1
  have hd : ∀ k : Str, BareName k → k.head? ≠ some '[' := by
    intro k hk hh
    apply hk.1
    cases k with
    | nil => simp at hh
    | cons c k => simp only [List.head?_cons, Option.some.injEq] at hh; rw [hh]; simp
  -- the tail of a name after the brackets
  let tl : REntry → List Str × Str := fun e => if e.isSec = true then (e.path ++ [e.key], []) else (e.path, if e.path = [] then e.key else ' ' :: e.key)
  have form : ∀ e : REntry, (if e.isSec = true then bracketed (e.path ++ [e.key]) else if e.path = [] then e.key else bracketed e.path ++ ' ' :: e.key) =
      bracketed (tl e).1 ++ (tl e).2 := by
    intro e
    simp only [tl]
    split
    · simp
    · split
      · next h => simp [h, bracketed]
      · rfl
  rw [form, form] at h
  have hdt : ∀ e : REntry, BareName e.key → (tl e).2.head? ≠ some '[' := by
    intro e hk
    simp only [tl]
    split
    · simp
    · dsimp only
      split
      · exact hd _ hk
      · simp
  have hbt : ∀ e : REntry, (∀ n ∈ e.path ++ [e.key], ']' ∉ n) → ∀ n ∈ (tl e).1, ']' ∉ n := by
    intro e hp n hn
    simp only [tl] at hn
    split at hn
    · exact hp n hn
    · exact hp n (by simp only at hn; simp [hn])
  obtain ⟨h1, h2⟩ := bracketed_inj _ _ _ _ (hbt e pe') (hbt f pf') (hdt e ke) (hdt f kf) h
  cases hes : e.isSec <;> cases hfs : f.isSec
  · simp only [tl, hes, hfs, Bool.false_eq_true, if_false] at h1 h2
    rw [h1] at h2
    refine ⟨rfl, h1, ?_⟩
    split at h2
    · exact h2
    · simpa using h2
  · exfalso
    simp only [tl, hes, hfs, Bool.false_eq_true, if_false, if_true] at h1 h2
    split at h2
    · exact hse hes h2
    · simp at h2
  · exfalso
    simp only [tl, hes, hfs, Bool.false_eq_true, if_false, if_true] at h1 h2
    split at h2
    · exact hsf hfs h2.symm
    · simp at h2
  · simp only [tl, hes, hfs, if_true] at h1
    have := List.append_inj' h1 (by simp)
    exact ⟨rfl, this.1, by simpa using this.2⟩

/-! ## texts -/

theorem splitNl_plain (cur s t : Str) (h : '\n' ∉ s) : splitNl cur (s ++ '\n' :: t) = (cur.reverse ++ s) :: splitNl [] t := by
  induction s generalizing cur with
  | nil => simp [splitNl]
  | cons c s ih =>
    simp only [List.mem_cons, not_or] at h
    rw [List.cons_append, splitNl, if_neg (fun e => h.1 e.symm), ih _ h.2]
    simp

theorem splitNl_ne_nil (cur s : Str) : splitNl cur s ≠ [] := by
  induction s generalizing cur with
  | nil => simp [splitNl]
  | cons c s ih => unfold splitNl; split; simp; exact ih _

theorem splitNl_noNl (cur s : Str) (hc : '\n' ∉ cur) : ∀ l ∈ splitNl cur s, '\n' ∉ l := by
  induction s generalizing cur with
  | nil => intro l hl; simp only [splitNl, List.mem_singleton] at hl; subst hl; simpa using hc
  | cons c s ih =>
    intro l hl
    unfold splitNl at hl
    split at hl
    · rcases List.mem_cons.1 hl with rfl | hl
      · simpa using hc
      · exact ih [] (by simp) l hl
    · next h => exact ih (c :: cur) (by simp only [List.mem_cons, not_or]; exact ⟨fun e => h e.symm, hc⟩) l hl

theorem splitNl_last (cur s : Str) (h : '\n' ∉ s) : splitNl cur s = [cur.reverse ++ s] := by
  induction s generalizing cur with
  | nil => simp [splitNl]
  | cons c s ih =>
    simp only [List.mem_cons, not_or] at h
    rw [splitNl, if_neg (fun e => h.1 e.symm), ih _ h.2]
    simp

/-- the lines of lines are themselves -/
theorem splitNl_join (l : List Str) (hne : l ≠ []) (h : ∀ s ∈ l, '\n' ∉ s) : splitNl [] (joinLines ['\n'] l) = l := by
  match l with
  | [] => exact absurd rfl hne
  | [s] => simp [joinLines, splitNl_last [] s (h s (by simp))]
  | s :: t :: l =>
    have : joinLines ['\n'] (s :: t :: l) = s ++ '\n' :: joinLines ['\n'] (t :: l) := by simp [joinLines]
    rw [this, splitNl_plain [] s _ (h s (by simp)), splitNl_join (t :: l) (by simp) (fun x hx => h x (by simp [hx]))]
    rfl

theorem indentOf_noNl (n : Nat) : '\n' ∉ indentOf n := by
  unfold indentOf
  intro h
  obtain ⟨l, hl, hm⟩ := List.mem_flatten.1 h
  rw [List.mem_replicate] at hl
  rw [hl.2] at hm
  revert hm
  decide

theorem splitNl_redent (n : Nat) (t : Str) : splitNl [] (redent n t) = (splitNl [] t).map (indentOf n ++ ·) := by
  unfold redent
  apply splitNl_join
  · simpa using splitNl_ne_nil [] t
  · intro s hs
    obtain ⟨l, hl, rfl⟩ := List.mem_map.1 hs
    simp only [List.mem_append, not_or]
    exact ⟨indentOf_noNl n, splitNl_noNl [] t (by simp) l hl⟩

theorem splitNl_append_nl (s t : Str) : splitNl [] (s ++ '\n' :: t) = splitNl [] s ++ splitNl [] t := by
  have : ∀ cur, splitNl cur (s ++ '\n' :: t) = splitNl cur s ++ splitNl [] t := by
    induction s with
    | nil => intro cur; simp [splitNl]
    | cons c s ih =>
      intro cur
      rw [List.cons_append, splitNl, splitNl.eq_2 cur c s]
      split
      · rw [ih]; rfl
      · exact ih _
  exact this []

theorem indentOf_add (m n : Nat) : indentOf m ++ indentOf n = indentOf (m + n) := by
  unfold indentOf
  rw [← List.flatten_append, List.replicate_append_replicate]

/-- the lines of the text about the items: one for each -/
def itemLine (p : Str × Str) : Str := "| ".toList ++ p.1 ++ ": ``".toList ++ (if p.2 = [] then " ".toList else p.2) ++ "``".toList

theorem ritems_lines (l : List (Str × Str)) (h : ∀ p ∈ l, '\n' ∉ p.1 ∧ '\n' ∉ p.2) (t : Str) : splitNl [] (ritems l ++ t) = l.map itemLine ++ splitNl [] t := by
  induction l with
  | nil => simp [ritems]
  | cons p l ih =>
    obtain ⟨k, v⟩ := p
    have hkv := h (k, v) (by simp)
    have e : ritems ((k, v) :: l) ++ t = itemLine (k, v) ++ '\n' :: (ritems l ++ t) := by
      rw [ritems]
      unfold itemLine
      cases v <;> simp
    have hn : '\n' ∉ itemLine (k, v) := by
      unfold itemLine
      intro hm
      simp only [List.mem_append] at hm
      rcases hm with (((hm | hm) | hm) | hm) | hm
      · revert hm; decide
      · exact hkv.1 hm
      · revert hm; decide
      · split at hm
        · revert hm; decide
        · exact hkv.2 hm
      · revert hm; decide
    rw [e, splitNl_plain [] _ _ hn, ih (fun p hp => h p (by simp [hp]))]
    rfl

/-- **C151** (text of an entry): it begins with the directive, indented by the depth of the section, and what follows is indented once more: an empty
line, the items if any, one by line, and the description. -/
theorem C151_text (optrole secrole : Str) (e : REntry) (hr : '\n' ∉ (if e.isSec then secrole else optrole)) (hn : '\n' ∉ rname e)
    (hi : ∀ p ∈ e.items, '\n' ∉ p.1 ∧ '\n' ∉ p.2) :
    ∃ d, splitNl [] (rdesc e.com) = d ∧
    splitNl [] (rentry optrole secrole e) =
      [indentOf e.path.length ++ (".. ".toList ++ (if e.isSec then secrole else optrole) ++ ":: ".toList ++ rname e), indentOf e.path.length] ++
      ((e.items.map itemLine ++ (if e.items = [] then [] else [[]]) ++ d).map (indentOf (e.path.length + 1) ++ ·)) ++ [indentOf e.path.length] := by
  refine ⟨_, rfl, ?_⟩
  unfold rentry
  rw [splitNl_redent]
  have hb : splitNl [] (rbody e) = e.items.map itemLine ++ (if e.items = [] then [] else [[]]) ++ splitNl [] (rdesc e.com) := by
    unfold rbody
    cases hit : e.items with
    | nil => simp
    | cons p l =>
      rw [if_neg (by simp), List.append_assoc, ritems_lines _ (by rw [← hit]; exact hi)]
      have : splitNl [] ("\n".toList ++ rdesc e.com) = [] :: splitNl [] (rdesc e.com) := rfl
      rw [this]
      simp
  have hd : '\n' ∉ ".. ".toList ++ (if e.isSec then secrole else optrole) ++ ":: ".toList ++ rname e := by
    simp only [List.mem_append, not_or]
    exact ⟨⟨⟨by decide, hr⟩, by decide⟩, hn⟩
  have e1 : ∀ (x y : Str), x ++ "\n\n".toList ++ y ++ "\n".toList = x ++ '\n' :: ([] ++ '\n' :: (y ++ '\n' :: [])) := by intro x y; simp
  rw [e1, splitNl_plain [] _ _ hd, splitNl_plain [] [] _ (by simp), splitNl_append_nl, splitNl_redent, hb]
  simp only [List.map_cons, List.map_append, List.map_map, List.reverse_nil, List.nil_append, splitNl, List.map_nil, List.append_nil]
  have e2 : ((fun x => indentOf e.path.length ++ x) ∘ fun x => indentOf 1 ++ x) = (fun x => indentOf (e.path.length + 1) ++ x) := by
    funext x
    simp only [Function.comp]
    rw [← List.append_assoc, indentOf_add]
  rw [e2]
  cases e.items <;> simp [← indentOf_add]

/-- **C151** (name of an entry): the names of the sections from the root, each in brackets, down to the section itself; then, for an option, a blank and its
name, that is alone when it is at the root. -/
theorem C151_name (path : List Str) (key : Str) (com : Option Str) (items : List (Str × Str)) :
    rname ⟨true, path, key, com, items⟩ = (path ++ [key]).flatMap (fun n => '[' :: n ++ [']']) ∧
    (path ≠ [] → rname ⟨false, path, key, com, items⟩ = path.flatMap (fun n => '[' :: n ++ [']']) ++ ' ' :: key) ∧
    (path = [] → rname ⟨false, path, key, com, items⟩ = key) := by
  refine ⟨?_, fun h => ?_, fun h => ?_⟩
  · rw [rname_eq]; rfl
  · rw [rname_eq]; simp only [Bool.false_eq_true, if_false, if_neg h]; rfl
  · rw [rname_eq]; simp only [Bool.false_eq_true, if_false, if_pos h]

/-- **C151** (descriptions): the description is the comment, without the number signs and the blanks around it, up to the case. -/
theorem C151_desc_partial (com : Option Str) : lower (rdesc com) = lower (strip (stripHash (com.getD []))) := lower_capitalize _

/-- **C151 is violated** (descriptions): a capital after the first letter of a comment is lost. -/
theorem C151_desc_violated (com : Option Str) (c d : Char) (a b : Str) (h : strip (stripHash (com.getD [])) = c :: (a ++ d :: b)) (hd : d.toLower ≠ d) :
    rdesc com ≠ strip (stripHash (com.getD [])) := by
  unfold rdesc
  rw [h]
  intro e
  simp only [capitalize, List.cons.injEq] at e
  have := e.2
  rw [lower_append] at this
  have := List.append_inj this (by simp [lower])
  have h2 := this.2
  simp only [lower, List.map_cons, List.cons.injEq] at h2
  exact hd h2.1

/-- the hypotheses are met: an option, a section with an option, and a comment with a capital -/
example : let cfg : RSec := .mk [("a".toList, some "# the A".toList, [("default".toList, "1".toList)])] [("s".toList, none, .mk [("b".toList, some "# of b".toList, [])] [])]
    cfg2rst "confopt".toList "confsec".toList cfg =
      ".. confopt:: a\n\n    | default: ``1``\n    \n    The a\n\n.. confsec:: [s]\n\n    \n\n    .. confopt:: [s] b\n    \n        Of b\n    ".toList := by
  simp only [cfg2rst, rwalk_eq, List.map_cons, List.map_nil, List.flatMap_cons, List.flatMap_nil, List.append_nil]
  decide +kernel

example : WfSec (.mk [("a".toList, none, [])] [("s".toList, none, .mk [("a".toList, none, [])] [])]) :=
  .mk _ _ (by simp) (by simp) (by
    intro s hs
    simp only [List.mem_singleton] at hs
    subst hs
    exact .mk _ _ (by simp) (by simp) (by simp))

end Xoa
