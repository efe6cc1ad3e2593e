import Verif.ArgParse
import Verif.CfgmPatchProps
import Verif.CfInheritLemmas
import Mathlib.Data.List.Nodup

/-!
# C116-C119: command line options over a configuration
-/

namespace Xoa

variable {V : Type}

/-! ## Specification -/

/-- sections and options have distinct names in each section, as in any dictionary -/
def WfTree {S : Type} (t : CT S) : Prop := ∀ r l, getT r t = some (.sec l) → (l.map Prod.fst).Nodup

/-- the documented long option of a key, without the two dashes: the name of the nesting section, of the sections and of the key,
joined by dashes, in lower case, with dashes instead of underscores: `section1-my-section2-my-key` -/
def longOption (nested : Str) (path : List Str) (key : Str) : Str :=
  List.intercalate ['-'] ((if nested = [] then [] else [nested]) ++ (path ++ [key]).map (fun s => lower (s.map (fun c => if c = '_' then '-' else c))))

/-- the nesting name is in lower case and has no dash -/
def NestedOk (nested : Str) : Prop := lower nested = nested ∧ '-' ∉ nested

/-- an option of the configuration that the command line can set: it is specified and not excluded; its name and those
of its sections have neither dashes nor blanks, nor underscores at their ends; it is not named as the option of the configuration file -/
structure Settable (specs : List (Str × CT (OptSpec V))) (exc : List Str) (path : List Str) (key : Str) (s : OptSpec V) : Prop where
  leaf : leafAt (path ++ [key]) (.sec specs) = some s
  notExcluded : key ∉ exc
  clean : cleanPath path
  key_clean : stripU key = key
  plain : ∀ n ∈ path ++ [key], plainName n
  notFile : lower (flatName path key) ≠ "cfgfile".toList

/-- the last occurrence of the option on the command line has this text -/
def LastGiven (given : List (Str × Option Str)) (name : Str) (text : Option Str) : Prop :=
  ∃ pre post, given = pre ++ (name, text) :: post ∧ ∀ g ∈ post, g.1 ≠ name

/-- the option is not on the command line -/
def NotGiven (given : List (Str × Option Str)) (name : Str) : Prop := ∀ g ∈ given, g.1 ≠ name

/-- the configuration file that is used: the last one of the command line, or the default one -/
def FileIs (given : List (Str × Option Str)) (dflt : Option Str) (f : Option Str) : Prop :=
  (∃ t, LastGiven given "cfgfile".toList (some t) ∧ f = some t) ∨ (NotGiven given "cfgfile".toList ∧ f = dflt)

/-! ## leaves of a tree -/

theorem WfTree.sub {S : Type} {l : List (Str × CT S)} (h : WfTree (.sec l)) (k : Str) (t : CT S) (hk : lookupS k l = some t) : WfTree t := by
  intro r l' hr
  exact h (k :: r) l' (by simp [getT, hk, hr])

theorem lookupS_of_mem_nodup {α : Type} (k : Str) (v : α) (l : List (Str × α)) (hn : (l.map Prod.fst).Nodup) (h : (k, v) ∈ l) : lookupS k l = some v := by
  induction l with
  | nil => simp at h
  | cons q l ih =>
    obtain ⟨a, b⟩ := q
    simp only [List.map_cons, List.nodup_cons] at hn
    rcases List.mem_cons.1 h with e | e
    · cases e; simp [lookupS]
    · have : k ≠ a := by
        rintro rfl
        exact hn.1 (List.mem_map.2 ⟨(k, v), e, rfl⟩)
      simp [lookupS, this, ih hn.2 e]

mutual
theorem leaf_of_mem_T {S : Type} (pre : List Str) (k : Str) (t : CT S) (h : WfTree t) (x : List Str × Str) (hx : x ∈ leavesT pre k t) :
    ∃ q v, pre ++ k :: q = x.1 ++ [x.2] ∧ leafAt q t = some v := by
  match t with
  | .val v =>
    simp only [leavesT, List.mem_singleton] at hx
    subst hx
    exact ⟨[], v, rfl, rfl⟩
  | .sec l =>
    rw [leavesT] at hx
    obtain ⟨q, v, h1, h2⟩ := leaf_of_mem_L (pre ++ [k]) l (h [] l rfl) (fun a u hu => h.sub a u hu) x hx
    exact ⟨q, v, by rw [← h1]; simp, h2⟩
termination_by sizeOf t
theorem leaf_of_mem_L {S : Type} (pre : List Str) (l : List (Str × CT S)) (hn : (l.map Prod.fst).Nodup) (hs : ∀ a u, lookupS a l = some u → WfTree u)
    (x : List Str × Str) (hx : x ∈ leavesL pre l) :
    ∃ q v, pre ++ q = x.1 ++ [x.2] ∧ leafAt q (.sec l) = some v := by
  match l with
  | [] => simp [leavesL] at hx
  | (k, t) :: rest =>
    rw [leavesL, List.mem_append] at hx
    rw [List.map_cons, List.nodup_cons] at hn
    rcases hx with hx | hx
    · obtain ⟨q, v, h1, h2⟩ := leaf_of_mem_T pre k t (hs k t (by simp [lookupS])) x hx
      refine ⟨k :: q, v, h1, ?_⟩
      rw [leafAt_eq_some] at h2 ⊢
      simp [getT, lookupS, h2]
    · have key : ∀ a u, lookupS a rest = some u → lookupS a ((k, t) :: rest) = some u := by
        intro a u hu
        have : a ≠ k := by
          rintro rfl
          exact hn.1 (List.mem_map.2 ⟨_, mem_of_lookupS _ _ _ hu, rfl⟩)
        simp [lookupS, this, hu]
      obtain ⟨q, v, h1, h2⟩ := leaf_of_mem_L pre rest hn.2 (fun a u hu => hs a u (key a u hu)) x hx
      refine ⟨q, v, h1, ?_⟩
      rw [leafAt_eq_some] at h2 ⊢
      cases q with
      | nil => simp [getT] at h2
      | cons a q =>
        simp only [getT] at h2 ⊢
        cases hu : lookupS a rest with
        | none => rw [hu] at h2; cases h2
        | some u => rw [hu] at h2; rw [key a u hu]; exact h2
termination_by sizeOf l
end

theorem mem_leaves_iff {S : Type} (specs : List (Str × CT S)) (h : WfTree (.sec specs)) (path : List Str) (key : Str) :
    (path, key) ∈ leavesL [] specs ↔ ∃ s, leafAt (path ++ [key]) (.sec specs) = some s := by
  constructor
  · intro hx
    obtain ⟨q, v, h1, h2⟩ := leaf_of_mem_L [] specs (h [] specs rfl) (fun a u hu => h.sub a u hu) _ hx
    simp only [List.nil_append] at h1
    exact ⟨v, by rw [← h1]; exact h2⟩
  · rintro ⟨s, hs⟩
    have := mem_leaves path key s [] specs hs
    simpa using this

/-- two options of a tree do not interfere -/
theorem leaves_apart {S : Type} (specs : List (Str × CT S)) (p1 p2 : List Str) (k1 k2 : Str) (s1 s2 : S)
    (h1 : leafAt (p1 ++ [k1]) (.sec specs) = some s1) (h2 : leafAt (p2 ++ [k2]) (.sec specs) = some s2) (hne : (p1, k1) ≠ (p2, k2)) :
    ¬ (p1 ++ [k1]) <+: p2 ∧ ¬ (p2 ++ [k2]) <+: (p1 ++ [k1]) := by
  have nopre : ∀ r r' : List Str, ∀ u v, leafAt r (.sec specs) = some u → leafAt r' (.sec specs) = some v → ∀ s, r' = r ++ s → s = [] := by
    intro r r' u v hu hv s hs
    by_contra hne
    have := getT_below r s (.sec specs) hne (by rw [kindAt_leaf _ _ _ hu]; simp)
    rw [leafAt_eq_some, hs, this] at hv
    cases hv
  constructor
  · rintro ⟨s, hs⟩
    have := nopre _ (p2 ++ [k2]) _ _ h1 h2 (s ++ [k2]) (by rw [← hs]; simp)
    simp at this
  · rintro ⟨s, hs⟩
    have := nopre _ _ _ _ h2 h1 s hs.symm
    subst this
    rw [List.append_nil] at hs
    have e := List.append_inj' hs rfl
    exact hne (Prod.ext e.1.symm (by simpa using e.2.symm))

/-! ## names -/

theorem intercalate_dashed (l : List Str) : dashed (List.intercalate ['_'] l) = List.intercalate ['-'] (l.map dashed) := by
  induction l with
  | nil => rfl
  | cons a l ih =>
    cases l with
    | nil => simp [List.intercalate]
    | cons b l =>
      have e1 : List.intercalate ['_'] (a :: b :: l) = a ++ '_' :: List.intercalate ['_'] (b :: l) := by simp [List.intercalate, List.intersperse]
      have e2 : List.intercalate ['-'] ((a :: b :: l).map dashed) = dashed a ++ '-' :: List.intercalate ['-'] ((b :: l).map dashed) := by
        simp [List.intercalate, List.intersperse]
      rw [e1, e2, ← ih]
      simp [dashed]

theorem intercalate_lower (l : List Str) : lower (List.intercalate ['-'] l) = List.intercalate ['-'] (l.map lower) := by
  induction l with
  | nil => rfl
  | cons a l ih =>
    cases l with
    | nil => simp [List.intercalate]
    | cons b l =>
      have e1 : List.intercalate ['-'] (a :: b :: l) = a ++ '-' :: List.intercalate ['-'] (b :: l) := by simp [List.intercalate, List.intersperse]
      have e2 : List.intercalate ['-'] ((a :: b :: l).map lower) = lower a ++ '-' :: List.intercalate ['-'] ((b :: l).map lower) := by
        simp [List.intercalate, List.intersperse]
      rw [e1, e2, ← ih, lower_append]
      congr 1

theorem dashed_plain (s : Str) (h : plainName s) : dashed s = s.map (fun c => if c = '_' then '-' else c) := by
  unfold dashed
  apply List.map_congr_left
  intro c hc
  simp [(h c hc).2]

/-- the declared option is the documented one -/
theorem cfg2opt_long (nested : Str) (path : List Str) (key : Str) (hn : NestedOk nested) (hc : cleanPath path) (hp : ∀ n ∈ path ++ [key], plainName n) :
    cfg2opt (flatName path key) nested = longOption nested path key := by
  have e0 : lower (dashed (flatName path key)) = List.intercalate ['-'] ((path ++ [key]).map (fun s => lower (s.map (fun c => if c = '_' then '-' else c)))) := by
    unfold flatName
    rw [hc, intercalate_dashed, intercalate_lower, List.map_map]
    congr 1
    apply List.map_congr_left
    intro s hs
    simp only [Function.comp_apply, dashed_plain s (hp s hs)]
  unfold cfg2opt longOption
  dsimp only
  by_cases h0 : nested = []
  · rw [if_pos h0, if_pos h0, e0, List.nil_append]
  · rw [if_neg h0, if_neg h0, lower_append, hn.1]
    have : lower ('-' :: dashed (flatName path key)) = '-' :: lower (dashed (flatName path key)) := by
      simp only [lower, List.map_cons]
      congr 1
    rw [this, e0]
    generalize hg : (path ++ [key]).map (fun s => lower (s.map (fun c => if c = '_' then '-' else c))) = ws
    cases ws with
    | nil => simp at hg
    | cons b l => simp [List.intercalate, List.intersperse]

theorem plain_flat (path : List Str) (key : Str) (hc : cleanPath path) (hp : ∀ n ∈ path ++ [key], plainName n) : plainName (flatName path key) := by
  unfold flatName
  rw [hc]
  generalize path ++ [key] = l at hp
  induction l with
  | nil => intro c hc; simp [List.intercalate] at hc
  | cons a l ih =>
    cases l with
    | nil => simpa [List.intercalate] using hp a (by simp)
    | cons b l =>
      have e1 : List.intercalate ['_'] (a :: b :: l) = a ++ '_' :: List.intercalate ['_'] (b :: l) := by simp [List.intercalate, List.intersperse]
      rw [e1]
      intro c hcm
      rcases List.mem_append.1 hcm with h | h
      · exact hp a (by simp) c h
      · rcases List.mem_cons.1 h with h | h
        · subst h; exact ⟨by decide, by decide⟩
        · exact ih (fun n hn => hp n (by simp [hn])) c h

theorem toLower_under (c : Char) (h : c.toLower = '_') : c = '_' := by
  unfold Char.toLower at h
  split at h
  · next hc =>
    exfalso
    have := congrArg Char.val h
    simp only at this
    have h1 := congrArg UInt32.toNat this
    rw [UInt32.toNat_add] at h1
    have ha := hc.1
    have hb := hc.2
    rw [ge_iff_le, UInt32.le_iff_toNat_le] at ha
    rw [UInt32.le_iff_toNat_le] at hb
    have e1 : ('A'.val).toNat = 65 := by decide
    have e2 : ('Z'.val).toNat = 90 := by decide
    have e3 : ('a'.val - 'A'.val : UInt32).toNat = 32 := by decide
    have e4 : ('_'.val).toNat = 95 := by decide
    rw [e3, e4] at h1
    rw [e1] at ha
    rw [e2] at hb
    omega
  · exact h

/-- dashes back from underscores -/
def redash (s : Str) : Str := s.map (fun c => if c = '_' then '-' else c)

theorem redash_dest (s : Str) : redash (argDest (lower (dashed s))) = lower (dashed s) := by
  unfold redash argDest
  rw [List.map_map]
  conv_rhs => rw [← List.map_id (lower (dashed s))]
  apply List.map_congr_left
  intro c hc
  simp only [Function.comp_apply, id]
  by_cases h1 : c = '-'
  · simp [h1]
  · rw [if_neg h1, if_neg]
    rintro rfl
    unfold lower dashed at hc
    rw [List.map_map] at hc
    obtain ⟨d, hd, e⟩ := List.mem_map.1 hc
    simp only [Function.comp_apply] at e
    have := toLower_under _ e
    split at this
    · cases this
    · next hh => simp [this] at hh

theorem argDest_id (s : Str) (hs : '-' ∉ s) : argDest s = s := by
  unfold argDest
  conv_rhs => rw [← List.map_id s]
  apply List.map_congr_left
  intro c hc
  have : c ≠ '-' := fun e => hs (e ▸ hc)
  simp [this]

theorem dash_notMem_dest (s : Str) : '-' ∉ argDest s := by
  unfold argDest
  intro h
  obtain ⟨c, -, e⟩ := List.mem_map.1 h
  split at e
  · cases e
  · next hc => exact hc e

theorem opt2cfg_dest (name nested : Str) (hn : NestedOk nested) : opt2cfg (argDest (cfg2opt name nested)) nested = argDest (lower (dashed name)) := by
  obtain ⟨hl, hd⟩ := hn
  unfold cfg2opt opt2cfg
  simp only
  rw [argDest_id (argDest _) (dash_notMem_dest _)]
  by_cases hne : nested = []
  · subst hne; simp
  · rw [if_neg hne]
    have e1 : argDest (lower (nested ++ '-' :: dashed name)) = nested ++ '_' :: argDest (lower (dashed name)) := by
      rw [lower_append, argDest_append, hl, argDest_id nested hd]
      congr 1
    rw [e1]
    have hp : (nested ++ ['_']).isPrefixOf (nested ++ '_' :: argDest (lower (dashed name))) = true := by
      rw [List.isPrefixOf_iff_prefix]
      exact ⟨argDest (lower (dashed name)), by simp⟩
    rw [if_pos ⟨hne, hp⟩]
    have : nested ++ '_' :: argDest (lower (dashed name)) = (nested ++ ['_']) ++ argDest (lower (dashed name)) := by simp
    rw [this]
    have hlen : nested.length + 1 = (nested ++ ['_']).length := by simp
    rw [hlen, List.drop_left]

theorem cfg2opt_of_dashed (n1 n2 nested : Str) (hn : NestedOk nested) (h : lower (dashed n1) = lower (dashed n2)) : cfg2opt n1 nested = cfg2opt n2 nested := by
  unfold cfg2opt
  dsimp only
  by_cases h0 : nested = []
  · rw [if_pos h0, if_pos h0, h]
  · rw [if_neg h0, if_neg h0, lower_append, lower_append]
    congr 1
    simp only [lower, List.map_cons]
    congr 1

/-- an option that reaches the same configuration name is the same option -/
theorem same_option (n1 n2 nested : Str) (hn : NestedOk nested) (h : opt2cfg (argDest (cfg2opt n1 nested)) nested = opt2cfg (argDest (cfg2opt n2 nested)) nested) :
    cfg2opt n1 nested = cfg2opt n2 nested := by
  rw [opt2cfg_dest _ _ hn, opt2cfg_dest _ _ hn] at h
  apply cfg2opt_of_dashed _ _ _ hn
  rw [← redash_dest n1, ← redash_dest n2, h]

/-! ## setting the configuration -/

/-- the value of the last option of the namespace that matches -/
def lastMatch (nested : Str) (pk : List Str × Str) (opts : List (Str × Option V)) : Option V :=
  opts.foldl (fun acc o => if o.2 ≠ none ∧ opt2cfg o.1 nested = lower (flatName pk.1 pk.2) then o.2 else acc) none

theorem lastMatch_go (nested : Str) (pk : List Str × Str) (opts : List (Str × Option V)) (acc : Option V) :
    opts.foldl (fun acc o => if o.2 ≠ none ∧ opt2cfg o.1 nested = lower (flatName pk.1 pk.2) then o.2 else acc) acc =
      (lastMatch nested pk opts).or acc := by
  unfold lastMatch
  induction opts generalizing acc with
  | nil => simp
  | cons o opts ih =>
    simp only [List.foldl_cons]
    rw [ih, ih (if o.2 ≠ none ∧ opt2cfg o.1 nested = lower (flatName pk.1 pk.2) then o.2 else none)]
    by_cases h : o.2 ≠ none ∧ opt2cfg o.1 nested = lower (flatName pk.1 pk.2)
    · rw [if_pos h, if_pos h]
      cases ho : o.2 with
      | none => exact absurd ho h.1
      | some v => cases (List.foldl (fun acc (o : Str × Option V) => if o.2 ≠ none ∧ opt2cfg o.1 nested = lower (flatName pk.1 pk.2) then o.2 else acc) none opts) <;> rfl
    · rw [if_neg h, if_neg h]; simp

theorem setOne_same (nested : Str) (pk : List Str × Str) (opts : List (Str × Option V)) (cfg : List (Str × CT V)) :
    leafAt (pk.1 ++ [pk.2]) (.sec (opts.foldl (setIfMatches nested pk) cfg)) = (lastMatch nested pk opts).or (leafAt (pk.1 ++ [pk.2]) (.sec cfg)) := by
  rw [← lastMatch_go]
  induction opts generalizing cfg with
  | nil => rfl
  | cons o opts ih =>
    simp only [List.foldl_cons]
    rw [ih]
    congr 1
    unfold setIfMatches
    cases ho : o.2 with
    | none => simp
    | some v =>
      by_cases h : opt2cfg o.1 nested = lower (flatName pk.1 pk.2)
      · simp only [h, if_true]
        rw [if_pos ⟨by simp, trivial⟩, leafAt_eq_some, getT_setAt_same]
        rfl
      · simp only [h, if_false]
        rw [if_neg (by simp)]

theorem setOne_other (nested : Str) (pk : List Str × Str) (opts : List (Str × Option V)) (cfg : List (Str × CT V)) (r : List Str)
    (h1 : ¬ r <+: pk.1) (h2 : ¬ pk.1 ++ [pk.2] <+: r) :
    getT r (.sec (opts.foldl (setIfMatches nested pk) cfg)) = getT r (.sec cfg) := by
  induction opts generalizing cfg with
  | nil => rfl
  | cons o opts ih =>
    simp only [List.foldl_cons]
    rw [ih]
    unfold setIfMatches
    cases ho : o.2 with
    | none => rfl
    | some v =>
      dsimp only
      split
      · exact getT_setAt_other _ _ _ _ _ h1 h2
      · rfl

theorem leafAt_congr {r : List Str} {t t' : CT V} (h : getT r t = getT r t') : leafAt r t = leafAt r t' := by
  unfold leafAt; rw [h]

/-- what the command line does to an option of the specifications -/
theorem setCfg_leaf {S : Type} (nested : Str) (specs : List (Str × CT S)) (hw : WfTree (.sec specs)) (opts : List (Str × Option V)) (cfg : List (Str × CT V))
    (path : List Str) (key : Str) (s : S) (hs : leafAt (path ++ [key]) (.sec specs) = some s) :
    leafAt (path ++ [key]) (.sec (setCfg nested specs opts cfg)) = (lastMatch nested (path, key) opts).or (leafAt (path ++ [key]) (.sec cfg)) := by
  have hm := (mem_leaves_iff specs hw path key).2 ⟨s, hs⟩
  have hall : ∀ x ∈ leavesL [] specs, ∃ s', leafAt (x.1 ++ [x.2]) (.sec specs) = some s' := fun x hx => (mem_leaves_iff specs hw x.1 x.2).1 hx
  unfold setCfg
  generalize leavesL [] specs = L at hm hall
  have notin : ∀ (L : List (List Str × Str)) (c : List (Str × CT V)), (∀ x ∈ L, ∃ s', leafAt (x.1 ++ [x.2]) (.sec specs) = some s') → (path, key) ∉ L →
      leafAt (path ++ [key]) (.sec (L.foldl (fun c pk => opts.foldl (setIfMatches nested pk) c) c)) = leafAt (path ++ [key]) (.sec c) := by
    intro L
    induction L with
    | nil => intros; rfl
    | cons x L ih =>
      intro c ha hn
      simp only [List.mem_cons, not_or] at hn
      simp only [List.foldl_cons]
      rw [ih _ (fun y hy => ha y (by simp [hy])) hn.2]
      obtain ⟨s', hs'⟩ := ha x (by simp)
      obtain ⟨g1, g2⟩ := leaves_apart specs path x.1 key x.2 s s' hs hs' hn.1
      exact leafAt_congr (setOne_other nested x opts c _ g1 g2)
  induction L generalizing cfg with
  | nil => simp at hm
  | cons x L ih =>
    simp only [List.foldl_cons]
    by_cases hin : (path, key) ∈ L
    · rw [ih _ hin (fun y hy => hall y (by simp [hy]))]
      by_cases hx : (path, key) = x
      · subst hx
        have := setOne_same nested (path, key) opts cfg
        dsimp only at this
        rw [this]
        cases lastMatch nested (path, key) opts <;> simp
      · obtain ⟨s', hs'⟩ := hall x (by simp)
        obtain ⟨g1, g2⟩ := leaves_apart specs path x.1 key x.2 s s' hs hs' hx
        rw [leafAt_congr (setOne_other nested x opts cfg _ g1 g2)]
    · rcases List.mem_cons.1 hm with e | e
      · subst e
        rw [notin _ _ (fun y hy => hall y (by simp [hy])) hin]
        exact setOne_same nested (path, key) opts cfg
      · exact absurd e hin

/-- an option that has nothing to do with the specifications is left as it is -/
theorem setCfg_extra {S : Type} (nested : Str) (specs : List (Str × CT S)) (opts : List (Str × Option V)) (cfg : List (Str × CT V))
    (r : List Str) (h : ∀ pk ∈ leavesL [] specs, ¬ r <+: pk.1 ∧ ¬ pk.1 ++ [pk.2] <+: r) :
    leafAt r (.sec (setCfg nested specs opts cfg)) = leafAt r (.sec cfg) := by
  unfold setCfg
  generalize leavesL [] specs = L at h
  induction L generalizing cfg with
  | nil => rfl
  | cons x L ih =>
    simp only [List.foldl_cons]
    rw [ih _ (fun y hy => h y (by simp [hy]))]
    obtain ⟨g1, g2⟩ := h x (by simp)
    exact leafAt_congr (setOne_other nested x opts cfg _ g1 g2)

/-! ## loading -/

theorem fill_leaf (specs : List (Str × CT (OptSpec V))) (hw : WfTree (.sec specs)) (cfg : List (Str × CT V))
    (path : List Str) (key : Str) (s : OptSpec V) (hs : leafAt (path ++ [key]) (.sec specs) = some s) :
    leafAt (path ++ [key]) (.sec ((leavesL [] specs).foldl (fillOpt specs) cfg)) = some ((leafAt (path ++ [key]) (.sec cfg)).getD s.dflt) := by
  have hm := (mem_leaves_iff specs hw path key).2 ⟨s, hs⟩
  have hall : ∀ x ∈ leavesL [] specs, ∃ s', leafAt (x.1 ++ [x.2]) (.sec specs) = some s' := fun x hx => (mem_leaves_iff specs hw x.1 x.2).1 hx
  have same : ∀ c : List (Str × CT V), leafAt (path ++ [key]) (.sec (fillOpt specs c (path, key))) = some ((leafAt (path ++ [key]) (.sec c)).getD s.dflt) := by
    intro c
    unfold fillOpt
    dsimp only
    cases hc : leafAt (path ++ [key]) (.sec c) with
    | none =>
      rw [hs]
      dsimp only
      rw [leafAt_eq_some, getT_setAt_same]
      rfl
    | some v => dsimp only; rw [hc]; rfl
  have other : ∀ (c : List (Str × CT V)) (x : List Str × Str), (path, key) ≠ x → (∃ s', leafAt (x.1 ++ [x.2]) (.sec specs) = some s') →
      leafAt (path ++ [key]) (.sec (fillOpt specs c x)) = leafAt (path ++ [key]) (.sec c) := by
    rintro c x hx ⟨s', hs'⟩
    obtain ⟨g1, g2⟩ := leaves_apart specs path x.1 key x.2 s s' hs hs' hx
    unfold fillOpt
    split
    · exact leafAt_congr (getT_setAt_other _ _ _ _ _ g1 g2)
    · rfl
  generalize leavesL [] specs = L at hm hall
  have notin : ∀ (L : List (List Str × Str)) (c : List (Str × CT V)), (∀ x ∈ L, ∃ s', leafAt (x.1 ++ [x.2]) (.sec specs) = some s') → (path, key) ∉ L →
      leafAt (path ++ [key]) (.sec (L.foldl (fillOpt specs) c)) = leafAt (path ++ [key]) (.sec c) := by
    intro L
    induction L with
    | nil => intros; rfl
    | cons x L ih =>
      intro c ha hn
      simp only [List.mem_cons, not_or] at hn
      simp only [List.foldl_cons]
      rw [ih _ (fun y hy => ha y (by simp [hy])) hn.2, other c x hn.1 (ha x (by simp))]
  induction L generalizing cfg with
  | nil => simp at hm
  | cons x L ih =>
    simp only [List.foldl_cons]
    by_cases hin : (path, key) ∈ L
    · rw [ih _ hin (fun y hy => hall y (by simp [hy]))]
      by_cases hx : (path, key) = x
      · subst hx
        rw [same]; rfl
      · rw [other cfg x hx (hall x (by simp))]
    · rcases List.mem_cons.1 hm with e | e
      · subst e
        rw [notin _ _ (fun y hy => hall y (by simp [hy])) hin, same]
      · exact absurd e hin

/-- C117 (`load`): an option has its value of the file, or its default -/
theorem C117_load (specs : List (Str × CT (OptSpec V))) (hw : WfTree (.sec specs)) (fs : Str → Option (List (Str × CT V))) (f : Str)
    (path : List Str) (key : Str) (s : OptSpec V) (hs : leafAt (path ++ [key]) (.sec specs) = some s) :
    leafAt (path ++ [key]) (.sec (loadCfg specs fs f)) = some (((fs f).bind (fun c => leafAt (path ++ [key]) (.sec c))).getD s.dflt) := by
  unfold loadCfg
  rw [fill_leaf specs hw _ path key s hs]
  cases fs f with
  | none =>
    have : leafAt (path ++ [key]) (.sec ([] : List (Str × CT V))) = none := by
      unfold leafAt
      cases path <;> simp [getT, lookupS]
    simp [this]
  | some c => rfl

/-! ## parsing -/

/-- what is known of the declarations -/
structure DeclsOk (nested : Str) (ds : List (Decl V)) : Prop where
  nodup : (ds.map Decl.name).Nodup
  own : ∀ d ∈ ds, d.name ∉ ownOpts
  names : ∀ d ∈ ds, ∃ flat, d.name = cfg2opt flat nested

theorem declare_ok (boolFalse : Bool) (exc : List Str) (nested : Str) (specs : List (Str × CT (OptSpec V))) (ds : List (Decl V))
    (h : declare boolFalse exc nested specs = .ok ds) :
    DeclsOk nested ds ∧ ds = (leavesL [] specs).filterMap (declOf boolFalse exc nested specs) := by
  unfold declare at h
  dsimp only at h
  split at h
  · next hn =>
    injection h with h
    refine ⟨⟨?_, ?_, ?_⟩, h.symm⟩
    · rw [← h]; exact (List.nodup_append.1 hn).2.1
    · intro d hd ho
      rw [← h] at hd
      exact (List.nodup_append.1 hn).2.2 _ ho _ (List.mem_map.2 ⟨d, hd, rfl⟩) rfl
    · intro d hd
      rw [← h] at hd
      obtain ⟨pk, -, e⟩ := List.mem_filterMap.1 hd
      unfold declOf at e
      dsimp only at e
      split at e
      · cases e
      · cases hl : leafAt (pk.1 ++ [stripU pk.2]) (.sec specs) with
        | none => rw [hl] at e; cases e
        | some s => rw [hl] at e; cases e; exact ⟨_, rfl⟩
  · cases h

theorem decl_mem (boolFalse : Bool) (exc : List Str) (nested : Str) (specs : List (Str × CT (OptSpec V))) (ds : List (Decl V))
    (h : declare boolFalse exc nested specs = .ok ds) (hn : NestedOk nested) (path : List Str) (key : Str) (s : OptSpec V)
    (hs : Settable specs exc path key s) : (⟨longOption nested path key, boolFalse && s.isBool, s⟩ : Decl V) ∈ ds := by
  rw [(declare_ok _ _ _ _ _ h).2]
  refine List.mem_filterMap.2 ⟨(path, key), ?_, ?_⟩
  · have := mem_leaves path key s [] specs hs.leaf
    simpa using this
  · unfold declOf
    dsimp only
    rw [hs.key_clean, if_neg (by rintro (h | h); exacts [hs.notExcluded h, hs.notExcluded h.2]), hs.leaf,
      Option.map_some, cfg2opt_long nested path key hn hs.clean hs.plain]

theorem DeclsOk.inj {nested : Str} {ds : List (Decl V)} (h : DeclsOk nested ds) (hn : NestedOk nested) (d d' : Decl V) (hd : d ∈ ds) (hd' : d' ∈ ds)
    (he : opt2cfg (argDest d.name) nested = opt2cfg (argDest d'.name) nested) : d = d' := by
  obtain ⟨f, hf⟩ := h.names d hd
  obtain ⟨f', hf'⟩ := h.names d' hd'
  have : d.name = d'.name := by
    rw [hf, hf'] at he ⊢
    exact same_option f f' nested hn he
  exact List.inj_on_of_nodup_map h.nodup hd hd' this

theorem DeclsOk.find {nested : Str} {ds : List (Decl V)} (h : DeclsOk nested ds) (d : Decl V) (hd : d ∈ ds) :
    ds.find? (fun x => decide (x.name = d.name)) = some d := by
  cases hf : ds.find? (fun x => decide (x.name = d.name)) with
  | none => exact absurd (List.find?_eq_none.1 hf d hd) (by simp)
  | some d' =>
    have h1 := List.mem_of_find?_eq_some hf
    have h2 : d'.name = d.name := by simpa using List.find?_some hf
    rw [List.inj_on_of_nodup_map h.nodup h1 hd h2]

/-- the value that an option gives, from its text -/
def Gives (B : ValOps V) (d : Decl V) (text : Option Str) (v : V) : Prop :=
  if d.flag then text = none ∧ v = B.ofBool (!flagDflt B d.spec) else ∃ t, text = some t ∧ d.spec.conv t = some v

theorem parseOne_spec (B : ValOps V) {nested : Str} (hn : NestedOk nested) {ds : List (Decl V)} (h : DeclsOk nested ds) (st st' : Option Str × List (Str × Option V))
    (g : Str × Option Str) (hp : parseOne B ds st g = .ok st') (hk : ∀ d ∈ ds, argDest d.name ∈ st.2.map Prod.fst) :
    (st'.2.map Prod.fst = st.2.map Prod.fst) ∧
    (g.1 = "cfgfile".toList → ∃ t, g.2 = some t ∧ st'.1 = some t) ∧ (g.1 ≠ "cfgfile".toList → st'.1 = st.1) ∧
    ∀ d ∈ ds, (g.1 ≠ d.name → lookupS (argDest d.name) st'.2 = lookupS (argDest d.name) st.2) ∧
      (g.1 = d.name → ∃ v, Gives B d g.2 v ∧ lookupS (argDest d.name) st'.2 = some (some v)) := by
  have cfgOwn : "cfgfile".toList ∈ ownOpts := by unfold ownOpts; simp
  unfold parseOne at hp
  by_cases hc : g.1 = "cfgfile".toList
  · rw [if_pos hc] at hp
    cases ht : g.2 with
    | none => rw [ht] at hp; cases hp
    | some t =>
      rw [ht] at hp
      injection hp with hp
      subst hp
      refine ⟨rfl, fun _ => ⟨t, rfl, rfl⟩, fun hne => absurd hc hne, fun d hd => ⟨fun _ => rfl, fun he => ?_⟩⟩
      exact absurd (by rw [← he, hc]; exact cfgOwn) (h.own d hd)
  · rw [if_neg hc] at hp
    split at hp
    · cases hp
    · cases hf : ds.find? (fun d => decide (d.name = g.1)) with
      | none => rw [hf] at hp; cases hp
      | some d0 =>
        rw [hf] at hp
        dsimp only at hp
        have hd0 : d0 ∈ ds := List.mem_of_find?_eq_some hf
        have hname : d0.name = g.1 := by simpa using List.find?_some hf
        have key : ∃ v, Gives B d0 g.2 v ∧ st' = (st.1, setS (argDest d0.name) (some v) st.2) := by
          unfold Gives
          by_cases hfl : d0.flag = true
          · simp only [hfl, if_true] at hp ⊢
            cases hg : g.2 with
            | some t => rw [hg] at hp; cases hp
            | none => rw [hg] at hp; injection hp with hp; exact ⟨_, ⟨rfl, rfl⟩, hp.symm⟩
          · simp only [hfl, Bool.false_eq_true, if_false] at hp ⊢
            cases hg : g.2 with
            | none => rw [hg] at hp; cases hp
            | some t =>
              rw [hg] at hp
              dsimp only at hp
              cases hcv : d0.spec.conv t with
              | none => rw [hcv] at hp; cases hp
              | some v => rw [hcv] at hp; injection hp with hp; exact ⟨v, ⟨t, rfl, hcv⟩, hp.symm⟩
        obtain ⟨v, hv, rfl⟩ := key
        refine ⟨?_, fun e => absurd e hc, fun _ => rfl, fun d hd => ⟨fun hne => ?_, fun he => ?_⟩⟩
        · exact setS_keys _ _ _ (lookupS_some_of_mem _ _ (hk d0 hd0))
        · rw [lookupS_setS, if_neg]
          intro e
          have := h.inj hn d d0 hd hd0 (by rw [e])
          rw [this] at hne
          exact hne hname.symm
        · have : d = d0 := List.inj_on_of_nodup_map h.nodup hd hd0 (by rw [← he, hname])
          subst this
          exact ⟨v, hv, by rw [lookupS_setS, if_pos rfl]⟩

theorem parseArgs_append (B : ValOps V) (ds : List (Decl V)) (a b : List (Str × Option Str)) (st st' : Option Str × List (Str × Option V))
    (h : parseArgs B ds (a ++ b) st = .ok st') : ∃ st1, parseArgs B ds a st = .ok st1 ∧ parseArgs B ds b st1 = .ok st' := by
  induction a generalizing st with
  | nil => exact ⟨st, rfl, h⟩
  | cons g a ih =>
    rw [List.cons_append] at h
    unfold parseArgs at h
    cases hp : parseOne B ds st g with
    | error e => rw [hp] at h; cases h
    | ok st1 =>
      rw [hp] at h
      obtain ⟨st2, h1, h2⟩ := ih st1 h
      refine ⟨st2, ?_, h2⟩
      rw [parseArgs, hp]
      exact h1

theorem parseArgs_rest (B : ValOps V) {nested : Str} (hn : NestedOk nested) {ds : List (Decl V)} (h : DeclsOk nested ds) (given : List (Str × Option Str))
    (st st' : Option Str × List (Str × Option V)) (hp : parseArgs B ds given st = .ok st') (hk : ∀ d ∈ ds, argDest d.name ∈ st.2.map Prod.fst) :
    (st'.2.map Prod.fst = st.2.map Prod.fst) ∧ (NotGiven given "cfgfile".toList → st'.1 = st.1) ∧
    ∀ d ∈ ds, NotGiven given d.name → lookupS (argDest d.name) st'.2 = lookupS (argDest d.name) st.2 := by
  induction given generalizing st with
  | nil =>
    injection hp with hp
    subst hp
    exact ⟨rfl, fun _ => rfl, fun _ _ _ => rfl⟩
  | cons g gs ih =>
    unfold parseArgs at hp
    cases h1 : parseOne B ds st g with
    | error e => rw [h1] at hp; cases hp
    | ok st1 =>
      rw [h1] at hp
      dsimp only at hp
      obtain ⟨a1, -, a3, a4⟩ := parseOne_spec B hn h st st1 g h1 hk
      obtain ⟨b1, b2, b3⟩ := ih st1 hp (by rw [a1]; exact hk)
      refine ⟨b1.trans a1, fun hg => ?_, fun d hd hg => ?_⟩
      · rw [b2 (fun x hx => hg x (by simp [hx])), a3 (hg g (by simp))]
      · rw [b3 d hd (fun x hx => hg x (by simp [hx])), (a4 d hd).1 (hg g (by simp))]

theorem initNs_keys (B : ValOps V) (ds : List (Decl V)) : (initNs B ds).map Prod.fst = ds.map (fun d => argDest d.name) := by
  unfold initNs
  rw [List.map_map]
  rfl

theorem initNs_nodup (B : ValOps V) {nested : Str} (hn : NestedOk nested) {ds : List (Decl V)} (h : DeclsOk nested ds) : ((initNs B ds).map Prod.fst).Nodup := by
  rw [initNs_keys]
  refine List.Nodup.map_on ?_ (List.Nodup.of_map _ h.nodup)
  intro d hd d' hd' e
  exact h.inj hn d d' hd hd' (by rw [e])

/-- what the parser makes of the command line -/
theorem parseArgs_spec (B : ValOps V) {nested : Str} (hn : NestedOk nested) {ds : List (Decl V)} (h : DeclsOk nested ds) (given : List (Str × Option Str))
    (file : Option Str) (st : Option Str × List (Str × Option V)) (hp : parseArgs B ds given (file, initNs B ds) = .ok st) :
    (st.2.map Prod.fst = ds.map (fun d => argDest d.name)) ∧ (∀ f, FileIs given file f → st.1 = f) ∧
    ∀ d ∈ ds, (NotGiven given d.name → lookupS (argDest d.name) st.2 = some (if d.flag then some (B.ofBool (flagDflt B d.spec)) else none)) ∧
      ∀ text, LastGiven given d.name text → ∃ v, Gives B d text v ∧ lookupS (argDest d.name) st.2 = some (some v) := by
  have hk : ∀ d ∈ ds, argDest d.name ∈ (initNs B ds).map Prod.fst := by
    intro d hd
    rw [initNs_keys]
    exact List.mem_map.2 ⟨d, hd, rfl⟩
  obtain ⟨a1, a2, a3⟩ := parseArgs_rest B hn h given _ _ hp hk
  refine ⟨a1.trans (initNs_keys B ds), ?_, fun d hd => ⟨fun hg => ?_, ?_⟩⟩
  · rintro f (⟨t, ⟨pre, post, e, hpost⟩, rfl⟩ | ⟨hg, rfl⟩)
    · rw [e] at hp
      obtain ⟨st1, b1, b2⟩ := parseArgs_append B ds _ _ _ _ hp
      obtain ⟨c1, -, -⟩ := parseArgs_rest B hn h _ _ _ b1 hk
      unfold parseArgs at b2
      cases h1 : parseOne B ds st1 ("cfgfile".toList, some t) with
      | error e => rw [h1] at b2; cases b2
      | ok st2 =>
        rw [h1] at b2
        dsimp only at b2
        obtain ⟨d1, d2, -, -⟩ := parseOne_spec B hn h st1 st2 _ h1 (by rw [c1]; exact hk)
        obtain ⟨t', e1, e2⟩ := d2 rfl
        injection e1 with e1
        rw [(parseArgs_rest B hn h _ _ _ b2 (by rw [d1, c1]; exact hk)).2.1 hpost, e2, e1]
    · exact a2 hg
  · rw [a3 d hd hg]
    refine lookupS_of_mem_nodup _ _ _ (initNs_nodup B hn h) ?_
    exact List.mem_map.2 ⟨d, hd, rfl⟩
  · rintro text ⟨pre, post, e, hpost⟩
    rw [e] at hp
    obtain ⟨st1, b1, b2⟩ := parseArgs_append B ds _ _ _ _ hp
    obtain ⟨c1, -, -⟩ := parseArgs_rest B hn h _ _ _ b1 hk
    unfold parseArgs at b2
    cases h1 : parseOne B ds st1 (d.name, text) with
    | error e => rw [h1] at b2; cases b2
    | ok st2 =>
      rw [h1] at b2
      dsimp only at b2
      obtain ⟨d1, -, -, d4⟩ := parseOne_spec B hn h st1 st2 _ h1 (by rw [c1]; exact hk)
      obtain ⟨v, e1, e2⟩ := (d4 d hd).2 rfl
      refine ⟨v, e1, ?_⟩
      rw [(parseArgs_rest B hn h _ _ _ b2 (by rw [d1, c1]; exact hk)).2.2 d hd hpost, e2]

/-! ## the value that reaches an option -/

theorem lastMatch_unique (nested : Str) (pk : List Str × Str) (opts : List (Str × Option V)) (dest : Str) (hn : (opts.map Prod.fst).Nodup)
    (hm : ∀ o ∈ opts, opt2cfg o.1 nested = lower (flatName pk.1 pk.2) ↔ o.1 = dest) :
    lastMatch nested pk opts = (lookupS dest opts).join := by
  unfold lastMatch
  have main : ∀ (opts : List (Str × Option V)) (acc : Option V), (opts.map Prod.fst).Nodup →
      (∀ o ∈ opts, opt2cfg o.1 nested = lower (flatName pk.1 pk.2) ↔ o.1 = dest) →
      opts.foldl (fun acc o => if o.2 ≠ none ∧ opt2cfg o.1 nested = lower (flatName pk.1 pk.2) then o.2 else acc) acc = ((lookupS dest opts).join).or acc := by
    intro opts
    induction opts with
    | nil => intro acc _ _; simp [lookupS]
    | cons o opts ih =>
      intro acc hn hm
      obtain ⟨a, b⟩ := o
      simp only [List.map_cons, List.nodup_cons] at hn
      simp only [List.foldl_cons]
      rw [ih _ hn.2 (fun o ho => hm o (by simp [ho]))]
      by_cases ha : a = dest
      · subst ha
        have h0 : lookupS a opts = none := lookupS_none_of_notMem _ _ hn.1
        have h1 := (hm (a, b) (by simp)).2 rfl
        dsimp only at h1
        simp only [h0, h1, and_true, lookupS, if_true]
        cases b <;> simp
      · have h1 : ¬ opt2cfg a nested = lower (flatName pk.1 pk.2) := fun e => ha ((hm (a, b) (by simp)).1 e)
        rw [if_neg (fun h => h1 h.2)]
        have : lookupS dest ((a, b) :: opts) = lookupS dest opts := by
          simp only [lookupS, if_neg (fun e : dest = a => ha e.symm)]
        rw [this]
  rw [main opts none hn hm]
  simp

theorem cfgfile_apart (nested : Str) : opt2cfg "cfgfile".toList nested = "cfgfile".toList := by
  have e : argDest "cfgfile".toList = "cfgfile".toList := by decide
  unfold opt2cfg
  rw [e]
  dsimp only
  rw [if_neg]
  rintro ⟨-, h⟩
  rw [List.isPrefixOf_iff_prefix] at h
  have : '_' ∈ "cfgfile".toList := h.subset (by simp)
  exact absurd this (by decide)

/-- the value that the namespace gives to an option -/
theorem lastMatch_target (B : ValOps V) {nested : Str} (hn : NestedOk nested) {ds : List (Decl V)} (h : DeclsOk nested ds) (st : Option Str × List (Str × Option V))
    (hk : st.2.map Prod.fst = ds.map (fun d => argDest d.name)) (path : List Str) (key : Str) (d : Decl V) (hd : d ∈ ds)
    (hname : d.name = longOption nested path key) (hc : cleanPath path) (hp : ∀ n ∈ path ++ [key], plainName n)
    (hf : lower (flatName path key) ≠ "cfgfile".toList) :
    lastMatch nested (path, key) (allOpts B st) = (lookupS (argDest d.name) st.2).join := by
  have hnd : (st.2.map Prod.fst).Nodup := by
    rw [hk]
    refine List.Nodup.map_on ?_ (List.Nodup.of_map _ h.nodup)
    intro d hd d' hd' e
    exact h.inj hn d d' hd hd' (by rw [e])
  have htgt : opt2cfg (argDest d.name) nested = lower (flatName path key) := by
    rw [hname, ← cfg2opt_long nested path key hn hc hp]
    exact C58_round_trip _ _ (plain_flat path key hc hp) hn.1 hn.2
  have hstep : lastMatch nested (path, key) (allOpts B st) = lastMatch nested (path, key) st.2 := by
    unfold lastMatch allOpts
    simp only [List.foldl_cons]
    rw [if_neg]
    rintro ⟨-, h2⟩
    rw [cfgfile_apart] at h2
    exact hf h2.symm
  rw [hstep]
  apply lastMatch_unique
  · exact hnd
  · intro o ho
    have : o.1 ∈ ds.map (fun d => argDest d.name) := by
      rw [← hk]
      exact List.mem_map.2 ⟨o, ho, rfl⟩
    obtain ⟨d', hd', e⟩ := List.mem_map.1 this
    dsimp only at e ⊢
    rw [← e, ← htgt]
    constructor
    · intro e'
      rw [h.inj hn d' d hd' hd e']
    · intro e'; rw [e']

/-! ## the whole -/

/-- the value that the command line gives to an option of the configuration: the checked text or, for boolean options
(`boolean_false=True`, the default), the opposite of the default: `False` unless the default is `False` -/
def CommandValue (B : ValOps V) (boolFalse : Bool) (s : OptSpec V) (text : Option Str) (v : V) : Prop :=
  (boolFalse = true ∧ s.isBool = true ∧ text = none ∧ (B.isFalse s.dflt = true → v = B.ofBool true) ∧ (B.isFalse s.dflt = false → v = B.ofBool false)) ∨
  ((boolFalse = false ∨ s.isBool = false) ∧ ∃ t, text = some t ∧ s.conv t = some v)

theorem commandValue_gives (B : ValOps V) (boolFalse : Bool) (s : OptSpec V) (n : Str) (text : Option Str) (v : V) :
    Gives B ⟨n, boolFalse && s.isBool, s⟩ text v ↔ CommandValue B boolFalse s text v := by
  unfold Gives CommandValue flagDflt
  cases hb : boolFalse <;> cases hs : s.isBool <;> cases hf : B.isFalse s.dflt <;> simp

/-- the steps of `arg_parse` -/
theorem argParse_ok (B : ValOps V) (T : Typing V) (boolFalse : Bool) (specs : List (Str × CT (OptSpec V)))
    (fs : Str → Option (List (Str × CT V))) (o : ArgOpts V) (given : List (Str × Option Str)) (cfg : List (Str × CT V))
    (h : argParse B T boolFalse specs fs o given = .ok cfg) :
    ∃ ds st, declare boolFalse o.exc o.nested specs = .ok ds ∧ parseArgs B ds given (o.cfgfile, initNs B ds) = .ok st ∧
      cfg = (
        let cfg0 := match o.patch with
          | .no => []
          | .yes => patchCfg T specs [] (dfltL specs)
          | .cfg c => if c.isEmpty then [] else patchCfg T specs [] c
        let useFile := fun cfg => match st.1 with
          | none => cfg
          | some f => if f = [] then cfg else patchCfg T specs cfg (loadCfg specs fs f)
        let cfg1 := if o.cfgfilepatch.when = .before then useFile cfg0 else cfg0
        let cfg2 := setCfg o.nested specs (allOpts B st) cfg1
        if o.cfgfilepatch.when = .after then useFile cfg2 else cfg2) := by
  unfold argParse at h
  cases hd : declare boolFalse o.exc o.nested specs with
  | error e => rw [hd] at h; cases h
  | ok ds =>
    rw [hd] at h
    dsimp only at h
    cases hp : parseArgs B ds given (o.cfgfile, initNs B ds) with
    | error e => rw [hp] at h; cases h
    | ok st =>
      rw [hp] at h
      injection h with h
      exact ⟨ds, st, rfl, hp, h.symm⟩

/-- the value of the namespace that reaches an option -/
theorem option_value (B : ValOps V) (boolFalse : Bool) (specs : List (Str × CT (OptSpec V))) (exc : List Str) (nested : Str) (file : Option Str)
    (given : List (Str × Option Str)) (ds : List (Decl V)) (st : Option Str × List (Str × Option V)) (hn : NestedOk nested)
    (hd : declare boolFalse exc nested specs = .ok ds) (hp : parseArgs B ds given (file, initNs B ds) = .ok st)
    (path : List Str) (key : Str) (s : OptSpec V) (hs : Settable specs exc path key s) :
    (∀ text, LastGiven given (longOption nested path key) text →
      ∃ v, CommandValue B boolFalse s text v ∧ lastMatch nested (path, key) (allOpts B st) = some v) ∧
    (NotGiven given (longOption nested path key) →
      lastMatch nested (path, key) (allOpts B st) = if (boolFalse && s.isBool) = true then some (B.ofBool (!B.isFalse s.dflt)) else none) := by
  obtain ⟨hok, -⟩ := declare_ok boolFalse exc nested specs ds hd
  have hmem := decl_mem boolFalse exc nested specs ds hd hn path key s hs
  obtain ⟨hk, -, hv⟩ := parseArgs_spec B hn hok given file st hp
  have ht := lastMatch_target B hn hok st hk path key _ hmem rfl hs.clean hs.plain hs.notFile
  obtain ⟨h1, h2⟩ := hv _ hmem
  dsimp only at ht h1 h2
  constructor
  · intro text hg
    obtain ⟨v, a, b⟩ := h2 text hg
    exact ⟨v, (commandValue_gives B boolFalse s _ text v).1 a, by rw [ht, b]; rfl⟩
  · intro hg
    rw [ht, h1 hg]
    rfl

/-- the user asks for the file after the command line: a text whose first character that is not a blank is `a` or `A` -/
def AsksAfter (p : CfgfilePatch) : Prop :=
  ∃ blanks c rest, p = .str (blanks ++ c :: rest) ∧ (∀ b ∈ blanks, isSpace b = true) ∧ (c = 'a' ∨ c = 'A')

/-- the user asks for no use of the file: `False` or an empty text -/
def AsksNever (p : CfgfilePatch) : Prop := p = .flag false ∨ p = .str []

theorem toLower_a (c : Char) : c.toLower = 'a' ↔ c = 'a' ∨ c = 'A' := by
  constructor
  · intro h
    unfold Char.toLower at h
    split at h
    · next h' =>
      right
      have h1 := congrArg Char.val h
      dsimp only at h1
      apply Char.ext
      have h2 : c.val = 'a'.val - ('a'.val - 'A'.val) := by
        have h3 := UInt32.add_sub_cancel c.val ('a'.val - 'A'.val)
        rw [h1] at h3
        exact h3.symm
      rw [h2]
      decide
    · exact Or.inl h
  · rintro (rfl | rfl) <;> decide

theorem strip_head (s : Str) (c : Char) (hc : isSpace c = false) :
    (strip s).head? = some c ↔ ∃ blanks rest, s = blanks ++ c :: rest ∧ ∀ b ∈ blanks, isSpace b = true := by
  have key : ∀ t : Str, (rstrip (c :: t)).head? = some c := by
    intro t
    unfold rstrip
    rw [List.reverse_cons, List.head?_reverse]
    have : ∀ l : Str, (List.dropWhile isSpace (l ++ [c])).getLast? = some c := by
      intro l
      induction l with
      | nil => simp [hc]
      | cons x l ih =>
        rw [List.cons_append, List.dropWhile_cons]
        split
        · exact ih
        · rw [List.getLast?_cons, List.getLast?_append]; simp
    exact this _
  have hd : ∀ t : Str, ∀ x, (rstrip t).head? = some x → t.head? = some x := by
    intro t x h
    unfold rstrip at h
    rw [List.head?_reverse] at h
    have hs : (List.dropWhile isSpace t.reverse) <:+ t.reverse := List.dropWhile_suffix _
    obtain ⟨p, hp⟩ := hs
    have : t = (List.dropWhile isSpace t.reverse).reverse ++ p.reverse := by
      have := congrArg List.reverse hp
      rw [List.reverse_append, List.reverse_reverse] at this
      exact this.symm
    rw [this, List.head?_append, List.head?_reverse, h]
    rfl
  constructor
  · intro h
    have h1 := hd _ _ h
    unfold lstrip at h1
    refine ⟨s.takeWhile isSpace, (s.dropWhile isSpace).tail, ?_, fun b hb => by
      have := List.all_takeWhile (p := isSpace) (l := s)
      rw [List.all_eq_true] at this
      exact this b hb⟩
    rw [List.cons_head?_tail (by simpa using h1), List.takeWhile_append_dropWhile]
  · rintro ⟨bl, rest, rfl, hb⟩
    unfold strip lstrip
    have : List.dropWhile isSpace (bl ++ c :: rest) = c :: rest := by
      rw [List.dropWhile_append_of_pos hb, List.dropWhile_cons_of_neg (by simp [hc])]
    rw [this]
    exact key rest

/-- **C118** (when the file is used): `False` and '' mean never, a text starting with `a` or `A` (after blanks) means after the command
line, and any other value means before it. -/
theorem C118_when (p : CfgfilePatch) : (p.when = .after ↔ AsksAfter p) ∧ (p.when = .never ↔ AsksNever p) ∧
    (p.when = .before ↔ ¬ AsksAfter p ∧ ¬ AsksNever p) := by
  have h1 : p.when = .after ↔ AsksAfter p := by
    cases p with
    | flag b =>
      constructor
      · intro h; cases b <;> simp [CfgfilePatch.when] at h
      · rintro ⟨_, _, _, h, _⟩; cases h
    | str s =>
      have hpre : ("a".toList.isPrefixOf (lower (strip s)) = true) ↔ AsksAfter (.str s) := by
        have e : ("a".toList.isPrefixOf (lower (strip s)) = true) ↔ ∃ c, (strip s).head? = some c ∧ c.toLower = 'a' := by
          show (['a'].isPrefixOf (lower (strip s)) = true) ↔ _
          unfold lower
          cases strip s with
          | nil => simp
          | cons x t =>
            constructor
            · intro h
              refine ⟨x, rfl, ?_⟩
              simp only [List.map_cons, List.isPrefixOf, Bool.and_true, beq_iff_eq] at h
              exact h.symm
            · rintro ⟨c, hc, hl⟩
              simp only [List.head?_cons, Option.some.injEq] at hc
              subst hc
              simp only [List.map_cons, List.isPrefixOf, Bool.and_true, beq_iff_eq]
              exact hl.symm
        rw [e]
        constructor
        · rintro ⟨c, hc, hl⟩
          have hl := (toLower_a c).1 hl
          obtain ⟨bl, rest, rfl, hb⟩ := (strip_head s c (by rcases hl with rfl | rfl <;> decide)).1 hc
          exact ⟨bl, c, rest, rfl, hb, hl⟩
        · rintro ⟨bl, c, rest, h, hb, hl⟩
          injection h with h
          exact ⟨c, (strip_head s c (by rcases hl with rfl | rfl <;> decide)).2 ⟨bl, rest, h, hb⟩, (toLower_a c).2 hl⟩
      show (if s = [] then _ else if _ then _ else _) = _ ↔ _
      by_cases hs : s = []
      · subst hs
        simp only [if_true]
        constructor
        · intro h; cases h
        · rintro ⟨bl, c, rest, h, -⟩
          injection h with h
          simp at h
      · rw [if_neg hs, ← hpre]
        by_cases hp : "a".toList.isPrefixOf (lower (strip s)) = true
        · rw [if_pos hp]; simp only [hp]
        · rw [if_neg hp]; simp only [hp]; simp
  have h2 : p.when = .never ↔ AsksNever p := by
    unfold AsksNever
    cases p with
    | flag b => cases b <;> simp [CfgfilePatch.when]
    | str s =>
      simp only [CfgfilePatch.when]
      by_cases hs : s = []
      · simp [hs]
      · rw [if_neg hs]
        split <;> simp [hs]
  refine ⟨h1, h2, ?_⟩
  rw [← h1, ← h2]
  cases p.when <;> simp
/-- **C116** (command line first): unless `cfgfilepatch` is "after", an option given on the command line has the value of its last
occurrence, whatever the configuration file, the defaults and `patch` are. -/
theorem C116_command_line (B : ValOps V) (T : Typing V) (boolFalse : Bool) (specs : List (Str × CT (OptSpec V))) (hw : WfTree (.sec specs))
    (fs : Str → Option (List (Str × CT V))) (o : ArgOpts V) (hn : NestedOk o.nested) (hask : ¬ AsksAfter o.cfgfilepatch)
    (given : List (Str × Option Str)) (cfg : List (Str × CT V)) (h : argParse B T boolFalse specs fs o given = .ok cfg)
    (path : List Str) (key : Str) (s : OptSpec V) (hs : Settable specs o.exc path key s) (text : Option Str)
    (hg : LastGiven given (longOption o.nested path key) text) :
    ∃ v, CommandValue B boolFalse s text v ∧ leafAt (path ++ [key]) (.sec cfg) = some v := by
  have hwhen : o.cfgfilepatch.when ≠ .after := fun e => hask ((C118_when _).1.1 e)
  obtain ⟨ds, st, hd, hp, e⟩ := argParse_ok B T boolFalse specs fs o given cfg h
  obtain ⟨v, h1, h2⟩ := (option_value B boolFalse specs o.exc o.nested o.cfgfile given ds st hn hd hp path key s hs).1 text hg
  refine ⟨v, h1, ?_⟩
  rw [e]
  dsimp only
  rw [if_neg hwhen, setCfg_leaf o.nested specs hw _ _ path key s hs.leaf, h2]
  rfl

theorem compatible_nil (p : List (Str × CT V)) : Compatible [] p := by
  intro r b b' h1 h2
  unfold kindAt at h1 h2
  cases r with
  | nil => simp only [getT] at h1 h2; simp_all
  | cons k r => simp [getT, lookupS] at h1

/-- **C117** (configuration file, then defaults): without `patch`, an option that is not given on the command line
has its value of the configuration file if there is one, else its default — except boolean options (see
`C117_flag_violated`). -/
theorem C117_not_given_partial (B : ValOps V) (T : Typing V) (hT : T.Lawful) (boolFalse : Bool) (specs : List (Str × CT (OptSpec V))) (hw : WfTree (.sec specs))
    (fs : Str → Option (List (Str × CT V))) (o : ArgOpts V) (hn : NestedOk o.nested) (hpatch : o.patch = .no) (hask : ¬ AsksAfter o.cfgfilepatch ∧ ¬ AsksNever o.cfgfilepatch)
    (given : List (Str × Option Str)) (cfg : List (Str × CT V)) (h : argParse B T boolFalse specs fs o given = .ok cfg)
    (path : List Str) (key : Str) (s : OptSpec V) (hs : Settable specs o.exc path key s) (hbool : boolFalse = false ∨ s.isBool = false)
    (hg : NotGiven given (longOption o.nested path key)) (f : Str) (hf : FileIs given o.cfgfile (some f)) (hne : f ≠ []) :
    leafAt (path ++ [key]) (.sec cfg) = some (((fs f).bind (fun c => leafAt (path ++ [key]) (.sec c))).getD s.dflt) := by
  have hwhen : o.cfgfilepatch.when = .before := (C118_when _).2.2.2 hask
  obtain ⟨ds, st, hd, hp, e⟩ := argParse_ok B T boolFalse specs fs o given cfg h
  obtain ⟨hok, -⟩ := declare_ok boolFalse o.exc o.nested specs ds hd
  have h2 := (option_value B boolFalse specs o.exc o.nested o.cfgfile given ds st hn hd hp path key s hs).2 hg
  have hfile := (parseArgs_spec B hn hok given o.cfgfile st hp).2.1 _ hf
  rw [if_neg (by rcases hbool with h | h <;> simp [h])] at h2
  rw [e, hpatch, hfile]
  dsimp only
  rw [if_neg (by rw [hwhen]; simp), if_pos hwhen, if_neg hne, setCfg_leaf o.nested specs hw _ _ path key s hs.leaf, h2, Option.none_or,
    C57_patched hT specs [] _ (compatible_nil _) path key hs.clean _ (C117_load specs hw fs f path key s hs.leaf)]
  congr 1
  unfold coerced
  cases path <;> rfl

/-- **C117 is violated** by boolean options: one that is not given has the boolean default whatever the configuration file
says: `True` unless the default is `False`. -/
theorem C117_flag_violated (B : ValOps V) (T : Typing V) (specs : List (Str × CT (OptSpec V))) (hw : WfTree (.sec specs))
    (fs : Str → Option (List (Str × CT V))) (o : ArgOpts V) (hn : NestedOk o.nested) (hask : ¬ AsksAfter o.cfgfilepatch)
    (given : List (Str × Option Str)) (cfg : List (Str × CT V)) (h : argParse B T true specs fs o given = .ok cfg)
    (path : List Str) (key : Str) (s : OptSpec V) (hs : Settable specs o.exc path key s) (hbool : s.isBool = true)
    (hg : NotGiven given (longOption o.nested path key)) :
    leafAt (path ++ [key]) (.sec cfg) = some (B.ofBool (!B.isFalse s.dflt)) := by
  have hwhen : o.cfgfilepatch.when ≠ .after := fun e => hask ((C118_when _).1.1 e)
  obtain ⟨ds, st, hd, hp, e⟩ := argParse_ok B T true specs fs o given cfg h
  have h2 := (option_value B true specs o.exc o.nested o.cfgfile given ds st hn hd hp path key s hs).2 hg
  rw [if_pos (by simp [hbool])] at h2
  rw [e]
  dsimp only
  rw [if_neg hwhen, setCfg_leaf o.nested specs hw _ _ path key s hs.leaf, h2]
  rfl

/-- without configuration file nor `patch`, an option that is not given is not in the result -/
theorem C117_no_file (B : ValOps V) (T : Typing V) (boolFalse : Bool) (specs : List (Str × CT (OptSpec V))) (hw : WfTree (.sec specs))
    (fs : Str → Option (List (Str × CT V))) (o : ArgOpts V) (hn : NestedOk o.nested) (hpatch : o.patch = .no)
    (given : List (Str × Option Str)) (cfg : List (Str × CT V)) (h : argParse B T boolFalse specs fs o given = .ok cfg)
    (path : List Str) (key : Str) (s : OptSpec V) (hs : Settable specs o.exc path key s) (hbool : boolFalse = false ∨ s.isBool = false)
    (hg : NotGiven given (longOption o.nested path key))
    (hf : AsksNever o.cfgfilepatch ∨ FileIs given o.cfgfile none ∨ FileIs given o.cfgfile (some [])) :
    leafAt (path ++ [key]) (.sec cfg) = none := by
  rw [← (C118_when o.cfgfilepatch).2.1] at hf
  obtain ⟨ds, st, hd, hp, e⟩ := argParse_ok B T boolFalse specs fs o given cfg h
  obtain ⟨hok, -⟩ := declare_ok boolFalse o.exc o.nested specs ds hd
  have h2 := (option_value B boolFalse specs o.exc o.nested o.cfgfile given ds st hn hd hp path key s hs).2 hg
  have hfile := (parseArgs_spec B hn hok given o.cfgfile st hp).2.1
  rw [if_neg (by rcases hbool with h | h <;> simp [h])] at h2
  have fin : leafAt (path ++ [key]) (.sec (setCfg o.nested specs (allOpts B st) [])) = none := by
    rw [setCfg_leaf o.nested specs hw _ _ path key s hs.leaf, h2]
    cases path <;> rfl
  rw [e, hpatch]
  dsimp only
  rcases hf with hf | hf | hf
  · rw [hf]; simpa using fin
  · rw [hfile _ hf]; simpa using fin
  · rw [hfile _ hf]; simpa using fin

/-! ## shapes -/

/-- the sections and the scalars of a configuration are among those of `K` -/
def Within {S : Type} (K : List Str → Bool → Prop) (c : List (Str × CT S)) : Prop := ∀ r b, kindAt r (.sec c) = some b → K r b

theorem within_compatible {K : List Str → Bool → Prop} (hK : ∀ r b b', K r b → K r b' → b = b') {c p : List (Str × CT V)} (hc : Within K c) (hp : Within K p) :
    Compatible c p := fun r _ _ h1 h2 => hK r _ _ (hc r _ h1) (hp r _ h2)

theorem within_setAt {S : Type} {K : List Str → Bool → Prop} {specs : List (Str × CT S)} (hs : Within K specs) {c : List (Str × CT V)} (hc : Within K c)
    (path : List Str) (key : Str) (s : S) (hl : leafAt (path ++ [key]) (.sec specs) = some s) (v : V) : Within K (setAt path key (.val v) c) := by
  intro r b h
  by_cases h1 : r <+: path
  · rw [getT_setAt_prefix path key _ c r h1] at h
    injection h with h
    subst h
    obtain ⟨q, rfl⟩ := h1
    refine hs r true (kindAt_prefix r (q ++ [key]) _ (by simp) ?_)
    rw [← List.append_assoc, (leafAt_eq_some _ _ _).1 hl]
    simp
  · by_cases h2 : path ++ [key] <+: r
    · obtain ⟨q, rfl⟩ := h2
      have e := getT_setAt_same path key (.val v) c q
      unfold kindAt at h
      rw [List.append_assoc, List.singleton_append, e] at h
      cases q with
      | nil =>
        simp only [getT] at h
        injection h with h
        subst h
        rw [List.append_nil]
        exact hs _ _ (kindAt_leaf _ _ _ hl)
      | cons a q => simp [getT] at h
    · have e := getT_setAt_other path key (.val v) c r h1 h2
      refine hc r b ?_
      unfold kindAt at h ⊢
      rw [← e]
      exact h

theorem within_setCfg {S : Type} {K : List Str → Bool → Prop} (nested : Str) {specs : List (Str × CT S)} (hw : WfTree (.sec specs)) (hs : Within K specs)
    (opts : List (Str × Option V)) {c : List (Str × CT V)} (hc : Within K c) : Within K (setCfg nested specs opts c) := by
  have hall : ∀ x ∈ leavesL [] specs, ∃ s', leafAt (x.1 ++ [x.2]) (.sec specs) = some s' := fun x hx => (mem_leaves_iff specs hw x.1 x.2).1 hx
  unfold setCfg
  generalize leavesL [] specs = L at hall
  induction L generalizing c with
  | nil => exact hc
  | cons x L ih =>
    simp only [List.foldl_cons]
    refine ih ?_ (fun y hy => hall y (by simp [hy]))
    obtain ⟨s', hs'⟩ := hall x (by simp)
    clear ih
    induction opts generalizing c with
    | nil => exact hc
    | cons o opts ih2 =>
      simp only [List.foldl_cons]
      refine ih2 ?_
      unfold setIfMatches
      cases o.2 with
      | none => exact hc
      | some v =>
        dsimp only
        split
        · exact within_setAt hs hc _ _ _ hs' v
        · exact hc

theorem within_load {K : List Str → Bool → Prop} {specs : List (Str × CT (OptSpec V))} (hw : WfTree (.sec specs)) (hs : Within K specs)
    (fs : Str → Option (List (Str × CT V))) (f : Str) (hf : ∀ c, fs f = some c → Within K c) : Within K (loadCfg specs fs f) := by
  have hall : ∀ x ∈ leavesL [] specs, ∃ s', leafAt (x.1 ++ [x.2]) (.sec specs) = some s' := fun x hx => (mem_leaves_iff specs hw x.1 x.2).1 hx
  have h0 : Within K ((fs f).getD []) := by
    cases h : fs f with
    | some c => exact hf c h
    | none =>
      intro r b hb
      cases r with
      | nil => exact hs [] b hb
      | cons a r => simp [kindAt, getT, lookupS] at hb
  unfold loadCfg
  generalize (fs f).getD [] = c at h0
  generalize leavesL [] specs = L at hall
  induction L generalizing c with
  | nil => exact h0
  | cons x L ih =>
    simp only [List.foldl_cons]
    refine ih _ ?_ (fun y hy => hall y (by simp [hy]))
    obtain ⟨s', hs'⟩ := hall x (by simp)
    unfold fillOpt
    rw [hs']
    split
    · exact within_setAt hs h0 _ _ _ hs' _
    · exact h0

theorem within_nil {S : Type} {K : List Str → Bool → Prop} {specs : List (Str × CT S)} (hs : Within K specs) : Within K ([] : List (Str × CT V)) := by
  intro r b hb
  cases r with
  | nil => exact hs [] b hb
  | cons a r => simp [kindAt, getT, lookupS] at hb

theorem within_patch {S : Type} {K : List Str → Bool → Prop} (hK : ∀ r b b', K r b → K r b' → b = b') {T : Typing V} (hT : T.Lawful) (specs : List (Str × CT S))
    {c p : List (Str × CT V)} (hc : Within K c) (hp : Within K p) : Within K (patchCfg T specs c p) := by
  obtain ⟨p', hi, -⟩ := patch_inv hT specs c p (within_compatible hK hc hp)
  intro r b h
  rcases hi.kc r b h with h3 | h3
  · exact hc r b h3
  · exact hp r b h3

mutual
theorem dflt_getT (t : CT (OptSpec V)) (r : List Str) : getT r (dfltT t) = (getT r t).map dfltT := by
  match t, r with
  | .val s, [] => simp [getT]
  | .sec l, [] => simp [getT]
  | .val s, k :: r => simp [getT, dfltT]
  | .sec l, k :: r =>
    rw [dfltT]
    simp only [getT]
    have h := dflt_lookup l k
    rw [h.1]
    cases hk : lookupS k l with
    | none => rfl
    | some u => exact h.2 u hk r
termination_by sizeOf t
theorem dflt_lookup (l : List (Str × CT (OptSpec V))) (k : Str) : lookupS k (dfltL l) = (lookupS k l).map dfltT ∧
    ∀ u, lookupS k l = some u → ∀ r, getT r (dfltT u) = (getT r u).map dfltT := by
  match l with
  | [] => exact ⟨by simp [dfltL, lookupS], by simp [lookupS]⟩
  | (a, t) :: rest =>
    have h1 := dflt_lookup rest k
    by_cases hk : k = a
    · refine ⟨by simp [dfltL, lookupS, hk], ?_⟩
      intro u hu r
      simp only [lookupS, if_pos hk] at hu
      injection hu with hu
      subst hu
      exact dflt_getT t r
    · refine ⟨by simp [dfltL, lookupS, hk, h1.1], ?_⟩
      intro u hu
      simp only [lookupS, if_neg hk] at hu
      exact h1.2 u hu
termination_by sizeOf l
end

theorem dflt_leaf (specs : List (Str × CT (OptSpec V))) (r : List Str) : leafAt r (.sec (dfltL specs)) = (leafAt r (.sec specs)).map OptSpec.dflt := by
  have h := dflt_getT (.sec specs) r
  rw [dfltT] at h
  unfold leafAt
  rw [h]
  cases getT r (.sec specs) with
  | none => rfl
  | some t => cases t <;> simp [dfltT]

theorem dflt_kind (specs : List (Str × CT (OptSpec V))) (r : List Str) : kindAt r (.sec (dfltL specs)) = kindAt r (.sec specs) := by
  have h := dflt_getT (.sec specs) r
  rw [dfltT] at h
  unfold kindAt
  rw [h]
  cases getT r (.sec specs) with
  | none => rfl
  | some t => cases t <;> simp [dfltT]

/-! ## patch and after -/

/-- the specifications, the configuration file and the argument `patch` agree on what is a section and what is an option -/
structure SameShapes (specs : List (Str × CT (OptSpec V))) (file : Option (List (Str × CT V))) (patch : PatchArg V) : Prop where
  file_specs : ∀ c, file = some c → ∀ r b b', kindAt r (.sec c) = some b → kindAt r (.sec specs) = some b' → b = b'
  patch_specs : ∀ c, patch = .cfg c → ∀ r b b', kindAt r (.sec c) = some b → kindAt r (.sec specs) = some b' → b = b'
  file_patch : ∀ c c', file = some c → patch = .cfg c' → ∀ r b b', kindAt r (.sec c) = some b → kindAt r (.sec c') = some b' → b = b'

/-- the union of the shapes -/
def shapesOf (specs : List (Str × CT (OptSpec V))) (file : Option (List (Str × CT V))) (patch : PatchArg V) (r : List Str) (b : Bool) : Prop :=
  kindAt r (.sec specs) = some b ∨ (∃ c, file = some c ∧ kindAt r (.sec c) = some b) ∨ ∃ c, patch = .cfg c ∧ kindAt r (.sec c) = some b

theorem SameShapes.functional {specs : List (Str × CT (OptSpec V))} {file : Option (List (Str × CT V))} {patch : PatchArg V} (h : SameShapes specs file patch) :
    ∀ r b b', shapesOf specs file patch r b → shapesOf specs file patch r b' → b = b' := by
  rintro r b b' (h1 | ⟨c, e, h1⟩ | ⟨c, e, h1⟩) (h2 | ⟨c', e', h2⟩ | ⟨c', e', h2⟩)
  · exact Option.some.inj (h1.symm.trans h2)
  · exact (h.file_specs c' e' r _ _ h2 h1).symm
  · exact (h.patch_specs c' e' r _ _ h2 h1).symm
  · exact h.file_specs c e r _ _ h1 h2
  · rw [e] at e'; injection e' with e'; subst e'; exact Option.some.inj (h1.symm.trans h2)
  · exact h.file_patch c c' e e' r _ _ h1 h2
  · exact h.patch_specs c e r _ _ h1 h2
  · exact (h.file_patch c' c e' e r _ _ h2 h1).symm
  · rw [e] at e'; injection e' with e'; subst e'; exact Option.some.inj (h1.symm.trans h2)

/-- the value of the configuration file, or the default: what `load` gives -/
def fileOrDflt (fs : Str → Option (List (Str × CT V))) (f : Str) (path : List Str) (key : Str) (s : OptSpec V) : V :=
  ((fs f).bind (fun c => leafAt (path ++ [key]) (.sec c))).getD s.dflt

/-- the value that the argument `patch` gives to an option -/
def patchValue (patch : PatchArg V) (path : List Str) (key : Str) (s : OptSpec V) : Option V :=
  match patch with
  | .no => none
  | .yes => some s.dflt
  | .cfg c => leafAt (path ++ [key]) (.sec c)

/-- the initial configuration of `arg_parse` -/
def cfgZero (T : Typing V) (specs : List (Str × CT (OptSpec V))) (patch : PatchArg V) : List (Str × CT V) :=
  match patch with
  | .no => []
  | .yes => patchCfg T specs [] (dfltL specs)
  | .cfg c => if c.isEmpty then [] else patchCfg T specs [] c

theorem leafAt_nil_cfg (path : List Str) (key : Str) : leafAt (path ++ [key]) (.sec ([] : List (Str × CT V))) = none := by
  cases path <;> rfl

theorem cfgZero_spec {T : Typing V} (hT : T.Lawful) (specs : List (Str × CT (OptSpec V))) (patch : PatchArg V)
    (K : List Str → Bool → Prop) (hK : ∀ r b b', K r b → K r b' → b = b') (hsp : Within K specs) (hpt : ∀ c, patch = .cfg c → Within K c)
    (path : List Str) (key : Str) (s : OptSpec V) (hs : leafAt (path ++ [key]) (.sec specs) = some s) (hclean : cleanPath path) :
    leafAt (path ++ [key]) (.sec (cfgZero T specs patch)) = patchValue patch path key s ∧ Within K (cfgZero T specs patch) := by
  have hnil : Within K ([] : List (Str × CT V)) := within_nil hsp
  have one : ∀ c : List (Str × CT V), leafAt (path ++ [key]) (.sec (patchCfg T specs [] c)) = leafAt (path ++ [key]) (.sec c) := by
    intro c
    cases hv : leafAt (path ++ [key]) (.sec c) with
    | none => rw [C57_others hT specs [] c (compatible_nil c) _ hv, leafAt_nil_cfg]
    | some v => rw [C57_patched hT specs [] c (compatible_nil c) path key hclean v hv, leafAt_nil_cfg]; rfl
  cases patch with
  | no => exact ⟨leafAt_nil_cfg path key, hnil⟩
  | yes =>
    refine ⟨?_, ?_⟩
    · show leafAt _ (.sec (patchCfg T specs [] (dfltL specs))) = some s.dflt
      rw [one, dflt_leaf, hs]
      rfl
    · refine within_patch hK hT specs hnil ?_
      intro r b hb
      rw [dflt_kind] at hb
      exact hsp r b hb
  | cfg c =>
    unfold cfgZero patchValue
    dsimp only
    cases c with
    | nil => exact ⟨rfl, hnil⟩
    | cons a c =>
      rw [if_neg (by simp)]
      exact ⟨one _, within_patch hK hT specs hnil (hpt _ rfl)⟩

theorem argParse_ok' (B : ValOps V) (T : Typing V) (boolFalse : Bool) (specs : List (Str × CT (OptSpec V)))
    (fs : Str → Option (List (Str × CT V))) (o : ArgOpts V) (given : List (Str × Option Str)) (cfg : List (Str × CT V))
    (h : argParse B T boolFalse specs fs o given = .ok cfg) :
    ∃ ds st, declare boolFalse o.exc o.nested specs = .ok ds ∧ parseArgs B ds given (o.cfgfile, initNs B ds) = .ok st ∧
      cfg = (
        let useFile := fun cfg => match st.1 with
          | none => cfg
          | some f => if f = [] then cfg else patchCfg T specs cfg (loadCfg specs fs f)
        let cfg1 := if o.cfgfilepatch.when = .before then useFile (cfgZero T specs o.patch) else cfgZero T specs o.patch
        let cfg2 := setCfg o.nested specs (allOpts B st) cfg1
        if o.cfgfilepatch.when = .after then useFile cfg2 else cfg2) := argParse_ok B T boolFalse specs fs o given cfg h

/-- what the value of an option becomes when the configuration file is used -/
theorem use_file {T : Typing V} (hT : T.Lawful) (specs : List (Str × CT (OptSpec V))) (hw : WfTree (.sec specs))
    (fs : Str → Option (List (Str × CT V))) (f : Str) (K : List Str → Bool → Prop) (hK : ∀ r b b', K r b → K r b' → b = b') (hsp : Within K specs)
    (hfile : ∀ c, fs f = some c → Within K c) (cfg : List (Str × CT V)) (hcfg : Within K cfg)
    (path : List Str) (key : Str) (s : OptSpec V) (hs : leafAt (path ++ [key]) (.sec specs) = some s) (hclean : cleanPath path) :
    leafAt (path ++ [key]) (.sec (patchCfg T specs cfg (loadCfg specs fs f))) = some (coerced T (leafAt (path ++ [key]) (.sec cfg)) (fileOrDflt fs f path key s)) :=
  C57_patched hT specs cfg _ (within_compatible hK hcfg (within_load hw hsp fs f hfile)) path key hclean _ (C117_load specs hw fs f path key s hs)

/-- a value is kept when it replaces a value of its type, or none -/
theorem coerced_same {T : Typing V} (hT : T.Lawful) (old : Option V) (v : V) (h : ∀ u, old = some u → T.ty u = T.ty v) : coerced T old v = v := by
  cases old with
  | none => rfl
  | some u => simp [coerced, h u rfl, hT.cast_self]

/-- **C117** with any `patch`: when the option is not given and the file is used, the option has the value of the file, or its
default (values of one option having the same type), so that the values of `patch` are never used. -/
theorem C117_patch_partial (B : ValOps V) (T : Typing V) (hT : T.Lawful) (boolFalse : Bool) (specs : List (Str × CT (OptSpec V))) (hw : WfTree (.sec specs))
    (fs : Str → Option (List (Str × CT V))) (o : ArgOpts V) (hn : NestedOk o.nested)
    (given : List (Str × Option Str)) (cfg : List (Str × CT V)) (h : argParse B T boolFalse specs fs o given = .ok cfg)
    (path : List Str) (key : Str) (s : OptSpec V) (hs : Settable specs o.exc path key s) (hbool : boolFalse = false ∨ s.isBool = false)
    (hg : NotGiven given (longOption o.nested path key)) (f : Str) (hf : FileIs given o.cfgfile (some f)) (hne : f ≠ [])
    (hshape : SameShapes specs (fs f) o.patch) (hask : ¬ AsksNever o.cfgfilepatch)
    (v : V) (hv : (((fs f).bind (fun c => leafAt (path ++ [key]) (.sec c))).getD s.dflt) = v)
    (hty : ∀ u, patchValue o.patch path key s = some u → T.ty u = T.ty v) :
    leafAt (path ++ [key]) (.sec cfg) = some v := by
  have hwhen : o.cfgfilepatch.when ≠ .never := fun e => hask ((C118_when _).2.1.1 e)
  obtain ⟨ds, st, hd, hp, e⟩ := argParse_ok' B T boolFalse specs fs o given cfg h
  obtain ⟨hok, -⟩ := declare_ok boolFalse o.exc o.nested specs ds hd
  have h2 := (option_value B boolFalse specs o.exc o.nested o.cfgfile given ds st hn hd hp path key s hs).2 hg
  have hfile := (parseArgs_spec B hn hok given o.cfgfile st hp).2.1 _ hf
  rw [if_neg (by rcases hbool with h | h <;> simp [h])] at h2
  have hK := hshape.functional
  have hsp : Within (shapesOf specs (fs f) o.patch) specs := fun r b hb => Or.inl hb
  have hfl : ∀ c, fs f = some c → Within (shapesOf specs (fs f) o.patch) c := fun c hc r b hb => Or.inr (Or.inl ⟨c, hc, hb⟩)
  obtain ⟨z1, z2⟩ := cfgZero_spec hT specs o.patch _ hK hsp (fun c hc r b hb => Or.inr (Or.inr ⟨c, hc, hb⟩)) path key s hs.leaf hs.clean
  rw [e, hfile]
  dsimp only
  cases hwh : o.cfgfilepatch.when with
  | never => exact absurd hwh hwhen
  | before =>
    simp only [reduceCtorEq, if_false, if_true, if_neg hne]
    rw [setCfg_leaf o.nested specs hw _ _ path key s hs.leaf, h2, Option.none_or,
      use_file hT specs hw fs f _ hK hsp hfl _ z2 path key s hs.leaf hs.clean, z1]
    unfold fileOrDflt
    rw [hv, coerced_same hT _ _ hty]
  | after =>
    simp only [reduceCtorEq, if_false, if_true, if_neg hne]
    rw [use_file hT specs hw fs f _ hK hsp hfl _ (within_setCfg o.nested hw hsp _ z2) path key s hs.leaf hs.clean,
      setCfg_leaf o.nested specs hw _ _ path key s hs.leaf, h2, Option.none_or, z1]
    unfold fileOrDflt
    rw [hv, coerced_same hT _ _ hty]

/-- **C119 is violated**: the value of an option in the configuration given as `patch` is lost when a configuration file is used,
even when this file does not have the option or does not exist. -/
theorem C119_patch_violated (B : ValOps V) (T : Typing V) (hT : T.Lawful) (boolFalse : Bool) (specs : List (Str × CT (OptSpec V))) (hw : WfTree (.sec specs))
    (fs : Str → Option (List (Str × CT V))) (o : ArgOpts V) (hn : NestedOk o.nested)
    (given : List (Str × Option Str)) (cfg : List (Str × CT V)) (h : argParse B T boolFalse specs fs o given = .ok cfg)
    (path : List Str) (key : Str) (s : OptSpec V) (hs : Settable specs o.exc path key s) (hbool : boolFalse = false ∨ s.isBool = false)
    (hg : NotGiven given (longOption o.nested path key)) (f : Str) (hf : FileIs given o.cfgfile (some f)) (hne : f ≠ [])
    (hshape : SameShapes specs (fs f) o.patch) (hask : ¬ AsksNever o.cfgfilepatch)
    (hno : ∀ c, fs f = some c → leafAt (path ++ [key]) (.sec c) = none)
    (c : List (Str × CT V)) (hc : o.patch = .cfg c) (u : V) (hu : leafAt (path ++ [key]) (.sec c) = some u) (hty : T.ty u = T.ty s.dflt) :
    leafAt (path ++ [key]) (.sec cfg) = some s.dflt := by
  have hwhen : o.cfgfilepatch.when ≠ .never := fun e => hask ((C118_when _).2.1.1 e)
  refine C117_patch_partial B T hT boolFalse specs hw fs o hn given cfg h path key s hs hbool hg f hf hne hshape hask s.dflt ?_ ?_
  · cases hfs : fs f with
    | none => rfl
    | some c' => simp [hno c' hfs]
  · intro u' hu'
    rw [hc] at hu'
    unfold patchValue at hu'
    dsimp only at hu'
    rw [hu] at hu'
    injection hu' with hu'
    rw [← hu', hty]

/-- **C119** without configuration file: the option has its value of `patch`, or its default when `patch=True` -/
theorem C119_no_file_partial (B : ValOps V) (T : Typing V) (hT : T.Lawful) (boolFalse : Bool) (specs : List (Str × CT (OptSpec V))) (hw : WfTree (.sec specs))
    (fs : Str → Option (List (Str × CT V))) (o : ArgOpts V) (hn : NestedOk o.nested)
    (given : List (Str × Option Str)) (cfg : List (Str × CT V)) (h : argParse B T boolFalse specs fs o given = .ok cfg)
    (path : List Str) (key : Str) (s : OptSpec V) (hs : Settable specs o.exc path key s) (hbool : boolFalse = false ∨ s.isBool = false)
    (hg : NotGiven given (longOption o.nested path key))
    (hshape : SameShapes specs none o.patch)
    (hf : AsksNever o.cfgfilepatch ∨ FileIs given o.cfgfile none ∨ FileIs given o.cfgfile (some [])) :
    (o.patch = .yes → leafAt (path ++ [key]) (.sec cfg) = some s.dflt) ∧
    ∀ c, o.patch = .cfg c → leafAt (path ++ [key]) (.sec cfg) = leafAt (path ++ [key]) (.sec c) := by
  rw [← (C118_when o.cfgfilepatch).2.1] at hf
  obtain ⟨ds, st, hd, hp, e⟩ := argParse_ok' B T boolFalse specs fs o given cfg h
  obtain ⟨hok, -⟩ := declare_ok boolFalse o.exc o.nested specs ds hd
  have h2 := (option_value B boolFalse specs o.exc o.nested o.cfgfile given ds st hn hd hp path key s hs).2 hg
  have hfile := (parseArgs_spec B hn hok given o.cfgfile st hp).2.1
  rw [if_neg (by rcases hbool with h | h <;> simp [h])] at h2
  obtain ⟨z1, -⟩ := cfgZero_spec hT specs o.patch _ hshape.functional (fun r b hb => Or.inl hb) (fun c hc r b hb => Or.inr (Or.inr ⟨c, hc, hb⟩))
    path key s hs.leaf hs.clean
  have fin : leafAt (path ++ [key]) (.sec cfg) = patchValue o.patch path key s := by
    have fin : leafAt (path ++ [key]) (.sec (setCfg o.nested specs (allOpts B st) (cfgZero T specs o.patch))) = patchValue o.patch path key s := by
      rw [setCfg_leaf o.nested specs hw _ _ path key s hs.leaf, h2, Option.none_or, z1]
    rw [e]
    dsimp only
    rcases hf with hf | hf | hf
    · rw [hf]; simpa using fin
    · rw [hfile _ hf]; simpa using fin
    · rw [hfile _ hf]; simpa using fin
  constructor
  · intro hy; rw [fin, hy]; rfl
  · intro c hc; rw [fin, hc]; rfl

/-- **C118 is violated**: with `cfgfilepatch="after"`, the value given on the command line is replaced by the default
even when the configuration file does not have the option or does not exist. -/
theorem C118_after_violated (B : ValOps V) (T : Typing V) (hT : T.Lawful) (boolFalse : Bool) (specs : List (Str × CT (OptSpec V))) (hw : WfTree (.sec specs))
    (fs : Str → Option (List (Str × CT V))) (o : ArgOpts V) (hn : NestedOk o.nested) (hask : AsksAfter o.cfgfilepatch)
    (given : List (Str × Option Str)) (cfg : List (Str × CT V)) (h : argParse B T boolFalse specs fs o given = .ok cfg)
    (path : List Str) (key : Str) (s : OptSpec V) (hs : Settable specs o.exc path key s)
    (f : Str) (hf : FileIs given o.cfgfile (some f)) (hne : f ≠ []) (hshape : SameShapes specs (fs f) o.patch)
    (hno : ∀ c, fs f = some c → leafAt (path ++ [key]) (.sec c) = none)
    (text : Option Str) (hg : LastGiven given (longOption o.nested path key) text)
    (hty : ∀ v, CommandValue B boolFalse s text v → T.ty v = T.ty s.dflt) :
    leafAt (path ++ [key]) (.sec cfg) = some s.dflt := by
  have hwhen : o.cfgfilepatch.when = .after := (C118_when _).1.2 hask
  obtain ⟨ds, st, hd, hp, e⟩ := argParse_ok' B T boolFalse specs fs o given cfg h
  obtain ⟨hok, -⟩ := declare_ok boolFalse o.exc o.nested specs ds hd
  obtain ⟨v, h1, h2⟩ := (option_value B boolFalse specs o.exc o.nested o.cfgfile given ds st hn hd hp path key s hs).1 text hg
  have hfile := (parseArgs_spec B hn hok given o.cfgfile st hp).2.1 _ hf
  have hK := hshape.functional
  have hsp : Within (shapesOf specs (fs f) o.patch) specs := fun r b hb => Or.inl hb
  have hfl : ∀ c, fs f = some c → Within (shapesOf specs (fs f) o.patch) c := fun c hc r b hb => Or.inr (Or.inl ⟨c, hc, hb⟩)
  obtain ⟨z1, z2⟩ := cfgZero_spec hT specs o.patch _ hK hsp (fun c hc r b hb => Or.inr (Or.inr ⟨c, hc, hb⟩)) path key s hs.leaf hs.clean
  have hd : fileOrDflt fs f path key s = s.dflt := by
    unfold fileOrDflt
    cases hfs : fs f with
    | none => rfl
    | some c' => simp [hno c' hfs]
  rw [e, hfile, hwhen]
  dsimp only
  simp only [reduceCtorEq, if_false, if_true, if_neg hne]
  rw [use_file hT specs hw fs f _ hK hsp hfl _ (within_setCfg o.nested hw hsp _ z2) path key s hs.leaf hs.clean,
    setCfg_leaf o.nested specs hw _ _ path key s hs.leaf, h2, Option.some_or, hd, coerced_same hT]
  intro u hu
  injection hu with hu
  subst hu
  exact hty v h1

/-- **C118** (file last): with `cfgfilepatch="after"`, an option that the configuration file has keeps this value, whatever the command line says. -/
theorem C118_file_last_partial (B : ValOps V) (T : Typing V) (hT : T.Lawful) (boolFalse : Bool) (specs : List (Str × CT (OptSpec V))) (hw : WfTree (.sec specs))
    (fs : Str → Option (List (Str × CT V))) (o : ArgOpts V) (hn : NestedOk o.nested) (hask : AsksAfter o.cfgfilepatch)
    (given : List (Str × Option Str)) (cfg : List (Str × CT V)) (h : argParse B T boolFalse specs fs o given = .ok cfg)
    (path : List Str) (key : Str) (s : OptSpec V) (hs : Settable specs o.exc path key s)
    (f : Str) (hf : FileIs given o.cfgfile (some f)) (hne : f ≠ []) (c : List (Str × CT V)) (hc : fs f = some c) (hshape : SameShapes specs (some c) o.patch)
    (w : V) (hfw : leafAt (path ++ [key]) (.sec c) = some w)
    (text : Option Str) (hg : LastGiven given (longOption o.nested path key) text)
    (hty : ∀ v, CommandValue B boolFalse s text v → T.ty v = T.ty w) :
    leafAt (path ++ [key]) (.sec cfg) = some w := by
  have hwhen : o.cfgfilepatch.when = .after := (C118_when _).1.2 hask
  obtain ⟨ds, st, hd, hp, e⟩ := argParse_ok' B T boolFalse specs fs o given cfg h
  obtain ⟨hok, -⟩ := declare_ok boolFalse o.exc o.nested specs ds hd
  obtain ⟨v, h1, h2⟩ := (option_value B boolFalse specs o.exc o.nested o.cfgfile given ds st hn hd hp path key s hs).1 text hg
  have hfile := (parseArgs_spec B hn hok given o.cfgfile st hp).2.1 _ hf
  rw [← hc] at hshape
  have hK := hshape.functional
  have hsp : Within (shapesOf specs (fs f) o.patch) specs := fun r b hb => Or.inl hb
  have hfl : ∀ c, fs f = some c → Within (shapesOf specs (fs f) o.patch) c := fun c hc r b hb => Or.inr (Or.inl ⟨c, hc, hb⟩)
  obtain ⟨z1, z2⟩ := cfgZero_spec hT specs o.patch _ hK hsp (fun c hc r b hb => Or.inr (Or.inr ⟨c, hc, hb⟩)) path key s hs.leaf hs.clean
  have hd : fileOrDflt fs f path key s = w := by
    unfold fileOrDflt
    simp [hc, hfw]
  rw [e, hfile, hwhen]
  dsimp only
  simp only [reduceCtorEq, if_false, if_true, if_neg hne]
  rw [use_file hT specs hw fs f _ hK hsp hfl _ (within_setCfg o.nested hw hsp _ z2) path key s hs.leaf hs.clean,
    setCfg_leaf o.nested specs hw _ _ path key s hs.leaf, h2, Option.some_or, hd, coerced_same hT]
  intro u hu
  injection hu with hu
  subst hu
  exact hty v h1

/-! ## what is accepted -/

/-- the names of the sections and of the options that are not excluded have neither dashes nor blanks, nor underscores at their ends -/
def PlainSpecs (specs : List (Str × CT (OptSpec V))) : Prop :=
  ∀ path key s, leafAt (path ++ [key]) (.sec specs) = some s → cleanPath path ∧ stripU key = key ∧ ∀ n ∈ path ++ [key], plainName n

/-- an option of the specifications that is not excluded -/
def Declared (specs : List (Str × CT (OptSpec V))) (exc : List Str) (path : List Str) (key : Str) (s : OptSpec V) : Prop :=
  leafAt (path ++ [key]) (.sec specs) = some s ∧ key ∉ exc

/-- two options have two names, which are not those that the parser has already -/
def NoConflict (specs : List (Str × CT (OptSpec V))) (exc : List Str) (nested : Str) : Prop :=
  (∀ p1 k1 s1 p2 k2 s2, Declared specs exc p1 k1 s1 → Declared specs exc p2 k2 s2 → longOption nested p1 k1 = longOption nested p2 k2 → p1 = p2 ∧ k1 = k2) ∧
  ∀ path key s, Declared specs exc path key s →
    longOption nested path key ∉ ["help".toList, "long-help".toList, "short-help".toList, "cfgfile".toList]

/-- an option of the command line that the parser accepts: the configuration file, or an option with a valid value -/
def GoodOption (B : ValOps V) (boolFalse : Bool) (specs : List (Str × CT (OptSpec V))) (exc : List Str) (nested : Str) (g : Str × Option Str) : Prop :=
  (g.1 = "cfgfile".toList ∧ ∃ t, g.2 = some t) ∨
  ∃ path key s v, Declared specs exc path key s ∧ g.1 = longOption nested path key ∧ CommandValue B boolFalse s g.2 v

mutual
theorem leavesT_nodup {S : Type} (pre : List Str) (k : Str) (t : CT S) (h : WfTree t) : (leavesT pre k t).Nodup := by
  match t with
  | .val v => simp [leavesT]
  | .sec l =>
    rw [leavesT]
    exact leavesL_nodup (pre ++ [k]) l (h [] l rfl) (fun a u hu => h.sub a u hu)
termination_by sizeOf t
theorem leavesL_nodup {S : Type} (pre : List Str) (l : List (Str × CT S)) (hn : (l.map Prod.fst).Nodup) (hs : ∀ a u, lookupS a l = some u → WfTree u) :
    (leavesL pre l).Nodup := by
  match l with
  | [] => simp [leavesL]
  | (k, t) :: rest =>
    rw [leavesL, List.nodup_append]
    rw [List.map_cons, List.nodup_cons] at hn
    have key : ∀ a u, lookupS a rest = some u → lookupS a ((k, t) :: rest) = some u := by
      intro a u hu
      have : a ≠ k := by
        rintro rfl
        exact hn.1 (List.mem_map.2 ⟨_, mem_of_lookupS _ _ _ hu, rfl⟩)
      simp [lookupS, this, hu]
    have hst : WfTree t := hs k t (by simp [lookupS])
    have hsr : ∀ a u, lookupS a rest = some u → WfTree u := fun a u hu => hs a u (key a u hu)
    refine ⟨leavesT_nodup pre k t hst, leavesL_nodup pre rest hn.2 hsr, ?_⟩
    intro x hx y hy e
    subst e
    obtain ⟨q, v, e1, -⟩ := leaf_of_mem_T pre k t hst x hx
    obtain ⟨q', v', e2, h2⟩ := leaf_of_mem_L pre rest hn.2 hsr x hy
    have e3 : k :: q = q' := List.append_cancel_left (e1.trans e2.symm)
    subst e3
    rw [leafAt_eq_some] at h2
    simp only [getT] at h2
    cases hu : lookupS k rest with
    | none => rw [hu] at h2; cases h2
    | some u => exact hn.1 (List.mem_map.2 ⟨_, mem_of_lookupS _ _ _ hu, rfl⟩)
termination_by sizeOf l
end

theorem declOf_plain (boolFalse : Bool) (exc : List Str) (nested : Str) (hn : NestedOk nested) (specs : List (Str × CT (OptSpec V))) (hpl : PlainSpecs specs)
    (path : List Str) (key : Str) (s : OptSpec V) (hs : leafAt (path ++ [key]) (.sec specs) = some s) :
    declOf boolFalse exc nested specs (path, key) = if key ∈ exc then none else some ⟨longOption nested path key, boolFalse && s.isBool, s⟩ := by
  obtain ⟨h1, h2, h3⟩ := hpl path key s hs
  unfold declOf
  dsimp only
  rw [h2, hs, cfg2opt_long nested path key hn h1 h3]
  by_cases hk : key ∈ exc
  · rw [if_pos (Or.inl hk), if_pos hk]
  · rw [if_neg (by rintro (h | h); exacts [hk h, hk h.2]), if_neg hk]
    rfl

theorem mem_decls (boolFalse : Bool) (exc : List Str) (nested : Str) (hn : NestedOk nested) (specs : List (Str × CT (OptSpec V))) (hw : WfTree (.sec specs))
    (hpl : PlainSpecs specs) (d : Decl V) :
    d ∈ (leavesL [] specs).filterMap (declOf boolFalse exc nested specs) ↔
      ∃ path key s, Declared specs exc path key s ∧ d = ⟨longOption nested path key, boolFalse && s.isBool, s⟩ := by
  rw [List.mem_filterMap]
  constructor
  · rintro ⟨⟨path, key⟩, hm, e⟩
    obtain ⟨s, hs⟩ := (mem_leaves_iff specs hw path key).1 hm
    rw [declOf_plain boolFalse exc nested hn specs hpl path key s hs] at e
    split at e
    · cases e
    · next hk => exact ⟨path, key, s, ⟨hs, hk⟩, (Option.some.inj e).symm⟩
  · rintro ⟨path, key, s, ⟨hs, hk⟩, rfl⟩
    exact ⟨(path, key), (mem_leaves_iff specs hw path key).2 ⟨s, hs⟩, by
      rw [declOf_plain boolFalse exc nested hn specs hpl path key s hs, if_neg hk]⟩

/-- **C116** (names of the options, keys of any form): the options that are declared are those of the specifications that are not excluded: an
option is excluded by its key without the underscores around it, in any section, or by its very key out of the sections. Underscores around a key
are not in the name of the option, and an option whose key without them is not in the same section of the specifications is left out. -/
theorem C116_declared (boolFalse : Bool) (exc : List Str) (nested : Str) (specs : List (Str × CT (OptSpec V))) (hw : WfTree (.sec specs))
    (ds : List (Decl V)) (hd : declare boolFalse exc nested specs = .ok ds) (d : Decl V) :
    d ∈ ds ↔ ∃ path key, (∃ s0, leafAt (path ++ [key]) (.sec specs) = some s0) ∧ stripU key ∉ exc ∧ (path = [] → key ∉ exc) ∧
      leafAt (path ++ [stripU key]) (.sec specs) = some d.spec ∧ d.name = cfg2opt (flatName path (stripU key)) nested ∧
      d.flag = (boolFalse && d.spec.isBool) := by
  unfold declare at hd
  simp only at hd
  split at hd
  · injection hd with hd
    subst hd
    rw [List.mem_filterMap]
    constructor
    · rintro ⟨⟨path, key⟩, hm, e⟩
      refine ⟨path, key, (mem_leaves_iff specs hw path key).1 hm, ?_⟩
      unfold declOf at e
      dsimp only at e
      split at e
      · cases e
      · next hk =>
        push Not at hk
        obtain ⟨s, hs, rfl⟩ := Option.map_eq_some_iff.1 e
        exact ⟨hk.1, hk.2, hs, rfl, rfl⟩
    · rintro ⟨path, key, h0, h1, h2, h3, h4, h5⟩
      refine ⟨(path, key), (mem_leaves_iff specs hw path key).2 h0, ?_⟩
      unfold declOf
      dsimp only
      rw [if_neg (by rintro (h | h); exacts [h1 h, h2 h.1 h.2]), h3]
      obtain ⟨n, f, s⟩ := d
      simp only at h4 h5
      rw [Option.map_some, h4, h5]
  · cases hd

theorem filterMap_names_nodup {α β γ : Type} (f : α → Option β) (g : β → γ) (l : List α) (hl : l.Nodup)
    (h : ∀ a ∈ l, ∀ a' ∈ l, ∀ b b', f a = some b → f a' = some b' → g b = g b' → a = a') : ((l.filterMap f).map g).Nodup := by
  induction l with
  | nil => simp
  | cons x l ih =>
    rw [List.nodup_cons] at hl
    have ih := ih hl.2 (fun a ha a' ha' => h a (by simp [ha]) a' (by simp [ha']))
    cases hf : f x with
    | none => rw [List.filterMap_cons_none hf]; exact ih
    | some b =>
      rw [List.filterMap_cons_some hf, List.map_cons, List.nodup_cons]
      refine ⟨?_, ih⟩
      intro hm
      obtain ⟨b', hb', e⟩ := List.mem_map.1 hm
      obtain ⟨a, ha, hfa⟩ := List.mem_filterMap.1 hb'
      have := h x (by simp) a (by simp [ha]) b b' hf hfa e.symm
      subst this
      exact hl.1 ha

theorem nodup_names_inj {α β γ : Type} (f : α → Option β) (g : β → γ) (l : List α) (h : ((l.filterMap f).map g).Nodup) (hl : l.Nodup)
    (a a' : α) (ha : a ∈ l) (ha' : a' ∈ l) (b b' : β) (hb : f a = some b) (hb' : f a' = some b') (e : g b = g b') : a = a' := by
  induction l with
  | nil => simp at ha
  | cons x l ih =>
    rw [List.nodup_cons] at hl
    cases hf : f x with
    | none =>
      rw [List.filterMap_cons_none hf] at h
      have h1 : a ∈ l := by
        rcases List.mem_cons.1 ha with r | r
        · subst r; rw [hf] at hb; cases hb
        · exact r
      have h2 : a' ∈ l := by
        rcases List.mem_cons.1 ha' with r | r
        · subst r; rw [hf] at hb'; cases hb'
        · exact r
      exact ih h hl.2 h1 h2
    | some c =>
      rw [List.filterMap_cons_some hf, List.map_cons, List.nodup_cons] at h
      rcases List.mem_cons.1 ha with r | r <;> rcases List.mem_cons.1 ha' with r' | r'
      · rw [r, r']
      · subst r
        rw [hf] at hb
        injection hb with hb
        subst hb
        exact absurd (List.mem_map.2 ⟨b', List.mem_filterMap.2 ⟨a', r', hb'⟩, e.symm⟩) h.1
      · subst r'
        rw [hf] at hb'
        injection hb' with hb'
        subst hb'
        exact absurd (List.mem_map.2 ⟨b, List.mem_filterMap.2 ⟨a, r, hb⟩, e⟩) h.1
      · exact ih h.2 hl.2 r r'

theorem declare_iff (boolFalse : Bool) (exc : List Str) (nested : Str) (hn : NestedOk nested) (specs : List (Str × CT (OptSpec V))) (hw : WfTree (.sec specs))
    (hpl : PlainSpecs specs) : (∃ ds, declare boolFalse exc nested specs = .ok ds) ↔ NoConflict specs exc nested := by
  have hnd : (leavesL [] specs).Nodup := leavesL_nodup [] specs (hw [] specs rfl) (fun a u hu => hw.sub a u hu)
  have iff : (∃ ds, declare boolFalse exc nested specs = .ok ds) ↔
      (ownOpts ++ ((leavesL [] specs).filterMap (declOf boolFalse exc nested specs)).map Decl.name).Nodup := by
    unfold declare
    dsimp only
    constructor
    · rintro ⟨ds, h⟩
      split at h
      · next hh => exact hh
      · cases h
    · intro h
      rw [if_pos h]
      exact ⟨_, rfl⟩
  rw [iff, List.nodup_append]
  constructor
  · rintro ⟨-, h2, h3⟩
    refine ⟨?_, ?_⟩
    · intro p1 k1 s1 p2 k2 s2 d1 d2 e
      have := nodup_names_inj _ Decl.name _ h2 hnd (p1, k1) (p2, k2) ((mem_leaves_iff specs hw p1 k1).2 ⟨s1, d1.1⟩)
        ((mem_leaves_iff specs hw p2 k2).2 ⟨s2, d2.1⟩) ⟨longOption nested p1 k1, boolFalse && s1.isBool, s1⟩ ⟨longOption nested p2 k2, boolFalse && s2.isBool, s2⟩
        (by rw [declOf_plain boolFalse exc nested hn specs hpl p1 k1 s1 d1.1, if_neg d1.2])
        (by rw [declOf_plain boolFalse exc nested hn specs hpl p2 k2 s2 d2.1, if_neg d2.2]) e
      exact ⟨congrArg Prod.fst this, congrArg Prod.snd this⟩
    · intro path key s hd hm
      refine h3 _ hm (longOption nested path key) ?_ rfl
      exact List.mem_map.2 ⟨_, (mem_decls boolFalse exc nested hn specs hw hpl _).2 ⟨path, key, s, hd, rfl⟩, rfl⟩
  · rintro ⟨h1, h2⟩
    refine ⟨by unfold ownOpts; decide, ?_, ?_⟩
    · refine filterMap_names_nodup _ _ _ hnd ?_
      rintro ⟨p1, k1⟩ m1 ⟨p2, k2⟩ m2 b1 b2 e1 e2 e
      obtain ⟨s1, hs1⟩ := (mem_leaves_iff specs hw p1 k1).1 m1
      obtain ⟨s2, hs2⟩ := (mem_leaves_iff specs hw p2 k2).1 m2
      rw [declOf_plain boolFalse exc nested hn specs hpl p1 k1 s1 hs1] at e1
      rw [declOf_plain boolFalse exc nested hn specs hpl p2 k2 s2 hs2] at e2
      split at e1
      · cases e1
      · next hk1 =>
        split at e2
        · cases e2
        · next hk2 =>
          injection e1 with e1
          injection e2 with e2
          subst e1
          subst e2
          obtain ⟨a, b⟩ := h1 p1 k1 s1 p2 k2 s2 ⟨hs1, hk1⟩ ⟨hs2, hk2⟩ e
          rw [a, b]
    · intro a ha b hb e
      subst e
      obtain ⟨d, hd, e⟩ := List.mem_map.1 hb
      obtain ⟨path, key, s, hdecl, rfl⟩ := (mem_decls boolFalse exc nested hn specs hw hpl d).1 hd
      subst e
      exact h2 path key s hdecl ha

theorem parseOne_ok_iff (B : ValOps V) {nested : Str} {ds : List (Decl V)} (h : DeclsOk nested ds) (st : Option Str × List (Str × Option V)) (g : Str × Option Str) :
    (∃ st', parseOne B ds st g = .ok st') ↔ (g.1 = "cfgfile".toList ∧ ∃ t, g.2 = some t) ∨ ∃ d ∈ ds, g.1 = d.name ∧ ∃ v, Gives B d g.2 v := by
  have cfgOwn : "cfgfile".toList ∈ ownOpts := by unfold ownOpts; simp
  unfold parseOne
  by_cases hc : g.1 = "cfgfile".toList
  · rw [if_pos hc]
    constructor
    · rintro ⟨st', e⟩
      cases ht : g.2 with
      | none => rw [ht] at e; cases e
      | some t => exact Or.inl ⟨hc, t, rfl⟩
    · rintro (⟨-, t, ht⟩ | ⟨d, hd, e, -⟩)
      · rw [ht]; exact ⟨_, rfl⟩
      · exact absurd (by rw [← e, hc]; exact cfgOwn) (h.own d hd)
  · rw [if_neg hc]
    by_cases ho : g.1 ∈ ownOpts
    · rw [if_pos ho]
      constructor
      · rintro ⟨st', e⟩; cases e
      · rintro (⟨e, -⟩ | ⟨d, hd, e, -⟩)
        · exact absurd e hc
        · exact absurd (by rw [← e]; exact ho) (h.own d hd)
    · rw [if_neg ho]
      cases hf : ds.find? (fun d => decide (d.name = g.1)) with
      | none =>
        constructor
        · rintro ⟨st', e⟩; cases e
        · rintro (⟨e, -⟩ | ⟨d, hd, e, -⟩)
          · exact absurd e hc
          · exact absurd (List.find?_eq_none.1 hf d hd) (by simp [e])
      | some d =>
        have hd : d ∈ ds := List.mem_of_find?_eq_some hf
        have hname : d.name = g.1 := by simpa using List.find?_some hf
        dsimp only
        have uniq : (∃ d' ∈ ds, g.1 = d'.name ∧ ∃ v, Gives B d' g.2 v) ↔ ∃ v, Gives B d g.2 v := by
          constructor
          · rintro ⟨d', hd', e, hv⟩
            have : d' = d := List.inj_on_of_nodup_map h.nodup hd' hd (by rw [← e, hname])
            subst this
            exact hv
          · intro hv
            exact ⟨d, hd, hname.symm, hv⟩
        rw [uniq]
        unfold Gives
        by_cases hfl : d.flag = true
        · simp only [hfl, if_true]
          cases hg : g.2 with
          | some t => simp; exact hc
          | none => simp
        · simp only [hfl, Bool.false_eq_true, if_false]
          cases hg : g.2 with
          | none => simp
          | some t =>
            dsimp only
            cases hcv : d.spec.conv t with
            | none => simp [hcv]; exact hc
            | some v => simp [hcv]

theorem parseArgs_ok_iff (B : ValOps V) {nested : Str} {ds : List (Decl V)} (h : DeclsOk nested ds) (given : List (Str × Option Str)) (st : Option Str × List (Str × Option V)) :
    (∃ st', parseArgs B ds given st = .ok st') ↔
      ∀ g ∈ given, (g.1 = "cfgfile".toList ∧ ∃ t, g.2 = some t) ∨ ∃ d ∈ ds, g.1 = d.name ∧ ∃ v, Gives B d g.2 v := by
  induction given generalizing st with
  | nil => simp [parseArgs]
  | cons g gs ih =>
    rw [List.forall_mem_cons, ← parseOne_ok_iff B h st g]
    cases hp : parseOne B ds st g with
    | error e =>
      constructor
      · rintro ⟨st', e'⟩; rw [parseArgs, hp] at e'; cases e'
      · rintro ⟨⟨st', e'⟩, -⟩; cases e'
    | ok st1 =>
      rw [parseArgs, hp]
      dsimp only
      rw [ih st1]
      exact ⟨fun h => ⟨⟨_, rfl⟩, h⟩, fun h => h.2⟩

/-- **C116** (what is accepted): `arg_parse` returns a configuration exactly when the options have distinct names and each
option of the command line exists and has a valid value. -/
theorem C116_accepts_iff (B : ValOps V) (T : Typing V) (boolFalse : Bool) (specs : List (Str × CT (OptSpec V))) (hw : WfTree (.sec specs))
    (hpl : PlainSpecs specs) (fs : Str → Option (List (Str × CT V))) (o : ArgOpts V) (hn : NestedOk o.nested) (given : List (Str × Option Str)) :
    (∃ cfg, argParse B T boolFalse specs fs o given = .ok cfg) ↔
      NoConflict specs o.exc o.nested ∧ ∀ g ∈ given, GoodOption B boolFalse specs o.exc o.nested g := by
  rw [← declare_iff boolFalse o.exc o.nested hn specs hw hpl]
  unfold argParse
  cases hd : declare boolFalse o.exc o.nested specs with
  | error e =>
    constructor
    · rintro ⟨c, h⟩; cases h
    · rintro ⟨⟨ds, h⟩, -⟩; cases h
  | ok ds =>
    obtain ⟨hok, hds⟩ := declare_ok boolFalse o.exc o.nested specs ds hd
    have hg : (∀ g ∈ given, GoodOption B boolFalse specs o.exc o.nested g) ↔
        ∀ g ∈ given, (g.1 = "cfgfile".toList ∧ ∃ t, g.2 = some t) ∨ ∃ d ∈ ds, g.1 = d.name ∧ ∃ v, Gives B d g.2 v := by
      refine forall₂_congr fun g _ => or_congr Iff.rfl ?_
      constructor
      · rintro ⟨path, key, s, v, h1, h2, h3⟩
        refine ⟨⟨longOption o.nested path key, boolFalse && s.isBool, s⟩, ?_, h2, v, (commandValue_gives B boolFalse s _ _ v).2 h3⟩
        rw [hds]
        exact (mem_decls boolFalse o.exc o.nested hn specs hw hpl _).2 ⟨path, key, s, h1, rfl⟩
      · rintro ⟨d, hdm, e, v, hv⟩
        rw [hds] at hdm
        obtain ⟨path, key, s, h1, rfl⟩ := (mem_decls boolFalse o.exc o.nested hn specs hw hpl d).1 hdm
        exact ⟨path, key, s, v, h1, e, (commandValue_gives B boolFalse s _ _ v).1 hv⟩
    rw [hg, ← parseArgs_ok_iff B hok given (o.cfgfile, initNs B ds)]
    dsimp only
    cases hp : parseArgs B ds given (o.cfgfile, initNs B ds) with
    | error e =>
      constructor
      · rintro ⟨c, h⟩; cases h
      · rintro ⟨-, st, h⟩; cases h
    | ok st => exact ⟨fun _ => ⟨⟨ds, rfl⟩, ⟨st, rfl⟩⟩, fun _ => ⟨_, rfl⟩⟩

/-! ## A concrete case -/

inductive AV
  | b (x : Bool) | n (x : Nat) | s (x : Str)
  deriving DecidableEq

def avOps : ValOps AV := ⟨fun v => decide (v = .b false), .b, .s⟩

inductive AVTy
  | b | n | s
  deriving DecidableEq

/-- conversions that never succeed between two types -/
def avTyping : Typing AV where
  Ty := AVTy
  ty := fun v => match v with | .b _ => .b | .n _ => .n | .s _ => .s
  cast := fun t v => match t, v with
    | .b, .b x => some (.b x)
    | .n, .n x => some (.n x)
    | .s, .s x => some (.s x)
    | _, _ => none

theorem avTyping_lawful : avTyping.Lawful := by
  constructor
  · intro v; cases v <;> rfl
  · intro t v w h
    cases t <;> cases v <;> simp [avTyping] at h <;> subst h <;> rfl

/-- the check of a positive integer written with the character `1` -/
def unary (t : Str) : Option AV := if t.all (fun c => decide (c = '1')) then some (.n t.length) else none

/-- `depth_max = integer(default=5)`, `verbose = boolean(default=False)`, and `[sec] my_key = string(default=a)`, `full = boolean(default=True)` -/
def avSpecs : List (Str × CT (OptSpec AV)) :=
  [("depth_max".toList, .val ⟨.n 5, false, unary⟩),
   ("verbose".toList, .val ⟨.b false, true, fun _ => none⟩),
   ("sec".toList, .sec [("my_key".toList, .val ⟨.s "a".toList, false, fun t => some (.s t)⟩), ("full".toList, .val ⟨.b true, true, fun _ => none⟩)])]

/-- a file with `verbose = True` and `[sec] full = False`, `depth_max = 8` -/
def avFs (f : Str) : Option (List (Str × CT AV)) :=
  if f = "a.cfg".toList then some [("depth_max".toList, .val (.n 8)), ("verbose".toList, .val (.b true)), ("sec".toList, .sec [("full".toList, .val (.b false))])] else none

/-- the leaves that one can look for in a result -/
def avLeaves (r : Except ArgErr (List (Str × CT AV))) : List (Option AV) :=
  match r with
  | .error _ => []
  | .ok c => [leafAt ["depth_max".toList] (.sec c), leafAt ["verbose".toList] (.sec c), leafAt ["sec".toList, "my_key".toList] (.sec c), leafAt ["sec".toList, "full".toList] (.sec c)]

/-- before (the default): the command line, then the file, then the defaults — but the flags ignore the file -/
example : avLeaves (argParse avOps avTyping true avSpecs avFs {}
    [("sec-my-key".toList, some "x".toList), ("cfgfile".toList, some "a.cfg".toList), ("sec-my-key".toList, some "y".toList)]) =
    [some (.n 8), some (.b false), some (.s "y".toList), some (.b true)] := by decide +kernel

/-- after: what is given is lost, without any file -/
example : avLeaves (argParse avOps avTyping true avSpecs avFs { cfgfilepatch := .str "After".toList }
    [("sec-my-key".toList, some "x".toList), ("depth-max".toList, some "11".toList)]) =
    [some (.n 5), some (.b false), some (.s "a".toList), some (.b true)] := by decide +kernel

/-- a configuration given as `patch` is lost -/
example : avLeaves (argParse avOps avTyping true avSpecs avFs { patch := .cfg [("depth_max".toList, .val (.n 7))] } []) =
    [some (.n 5), some (.b false), some (.s "a".toList), some (.b true)] := by decide +kernel

/-- ... and kept when no file is used -/
example : avLeaves (argParse avOps avTyping true avSpecs avFs { patch := .cfg [("depth_max".toList, .val (.n 7))], cfgfilepatch := .flag false }
    [("verbose".toList, none)]) = [some (.n 7), some (.b true), none, some (.b true)] := by decide +kernel

/-- underscores around a key: with `_x` and `x` there are two options of the same name, unless `_x` is excluded -/
example : (declare true [] [] [("_x".toList, .val (⟨.n 5, false, unary⟩ : OptSpec AV)), ("x".toList, .val ⟨.n 6, false, unary⟩)]).toOption.isNone = true ∧
    (declare true ["_x".toList] [] [("_x".toList, .val (⟨.n 5, false, unary⟩ : OptSpec AV)), ("x".toList, .val ⟨.n 6, false, unary⟩)]).toOption.map
      (fun l => l.map fun d => (d.name, d.spec.dflt)) = some [("x".toList, .n 6)] := by decide +kernel

theorem avSpecs_leaf (r : List Str) (s : OptSpec AV) (h : leafAt r (.sec avSpecs) = some s) :
    (r = ["depth_max".toList] ∧ s = ⟨.n 5, false, unary⟩) ∨ (r = ["verbose".toList] ∧ s = ⟨.b false, true, fun _ => none⟩) ∨
    (r = ["sec".toList, "my_key".toList] ∧ s = ⟨.s "a".toList, false, fun t => some (.s t)⟩) ∨
    (r = ["sec".toList, "full".toList] ∧ s = ⟨.b true, true, fun _ => none⟩) := by
  rw [leafAt_eq_some] at h
  match r with
  | [] => simp [getT] at h
  | k :: r =>
    simp only [getT, avSpecs, lookupS] at h
    by_cases h1 : k = "depth_max".toList
    · rw [if_pos h1] at h
      cases r with
      | nil => simp only [getT, Option.bind_some] at h; injection h with h; injection h with h; exact Or.inl ⟨by rw [h1], h.symm⟩
      | cons a r => simp [getT] at h
    · rw [if_neg h1] at h
      by_cases h2 : k = "verbose".toList
      · rw [if_pos h2] at h
        cases r with
        | nil => simp only [getT, Option.bind_some] at h; injection h with h; injection h with h; exact Or.inr (Or.inl ⟨by rw [h2], h.symm⟩)
        | cons a r => simp [getT] at h
      · rw [if_neg h2] at h
        by_cases h3 : k = "sec".toList
        · rw [if_pos h3] at h
          match r with
          | [] => simp [getT] at h
          | a :: r =>
            simp only [getT, Option.bind_some, lookupS] at h
            by_cases h4 : a = "my_key".toList
            · rw [if_pos h4] at h
              cases r with
              | nil => simp only [getT, Option.bind_some] at h; injection h with h; injection h with h; exact Or.inr (Or.inr (Or.inl ⟨by rw [h3, h4], h.symm⟩))
              | cons b r => simp [getT] at h
            · rw [if_neg h4] at h
              by_cases h5 : a = "full".toList
              · rw [if_pos h5] at h
                cases r with
                | nil => simp only [getT, Option.bind_some] at h; injection h with h; injection h with h; exact Or.inr (Or.inr (Or.inr ⟨by rw [h3, h5], h.symm⟩))
                | cons b r => simp [getT] at h
              · rw [if_neg h5] at h; simp at h
        · rw [if_neg h3] at h; simp at h

example : PlainSpecs avSpecs := by
  intro path key s h
  have : (path ++ [key]).map stripU = path ++ [key] ∧ (∀ n ∈ path ++ [key], plainName n) → cleanPath path ∧ stripU key = key ∧ ∀ n ∈ path ++ [key], plainName n := by
    rintro ⟨h1, h2⟩
    rw [List.map_append] at h1
    have := List.append_inj' h1 rfl
    exact ⟨this.1, by simpa using this.2, h2⟩
  apply this
  rcases avSpecs_leaf _ _ h with ⟨e, -⟩ | ⟨e, -⟩ | ⟨e, -⟩ | ⟨e, -⟩ <;> rw [e] <;> refine ⟨by decide, ?_⟩ <;> unfold plainName <;> decide

example : Settable avSpecs [] ["sec".toList] "my_key".toList ⟨.s "a".toList, false, fun t => some (.s t)⟩ :=
  ⟨rfl, by simp, by unfold cleanPath; decide, by decide, by unfold plainName; decide, by decide⟩

theorem avSpecs_wf : WfTree (.sec avSpecs) := by
  intro r l h
  match r with
  | [] =>
    simp only [getT] at h
    injection h with h
    injection h with h
    subst h
    decide
  | k :: r =>
    simp only [getT, avSpecs, lookupS] at h
    by_cases h1 : k = "depth_max".toList
    · rw [if_pos h1] at h
      cases r <;> simp [getT] at h
    · rw [if_neg h1] at h
      by_cases h2 : k = "verbose".toList
      · rw [if_pos h2] at h
        cases r <;> simp [getT] at h
      · rw [if_neg h2] at h
        by_cases h3 : k = "sec".toList
        · rw [if_pos h3] at h
          match r with
          | [] =>
            simp only [getT, Option.bind_some] at h
            injection h with h
            injection h with h
            subst h
            rw [List.map_cons, List.map_cons]
            decide
          | a :: r =>
            simp only [getT, Option.bind_some, lookupS] at h
            by_cases h4 : a = "my_key".toList
            · rw [if_pos h4] at h
              cases r <;> simp [getT] at h
            · rw [if_neg h4] at h
              by_cases h5 : a = "full".toList
              · rw [if_pos h5] at h
                cases r <;> simp [getT] at h
              · rw [if_neg h5] at h; simp at h
        · rw [if_neg h3] at h; simp at h

example : NestedOk [] ∧ NestedOk "my_prog".toList := by unfold NestedOk; decide

example : LastGiven [("sec-my-key".toList, some "x".toList), ("depth-max".toList, some "11".toList), ("sec-my-key".toList, some "y".toList)]
    (longOption [] ["sec".toList] "my_key".toList) (some "y".toList) :=
  ⟨[("sec-my-key".toList, some "x".toList), ("depth-max".toList, some "11".toList)], [], rfl, by simp⟩

example : SameShapes avSpecs (avFs "none.cfg".toList) (.cfg [("depth_max".toList, .val (.n 7))]) := by
  refine ⟨fun c h => by simp [avFs] at h, ?_, fun c c' h => by simp [avFs] at h⟩
  intro c h r b b' h1 h2
  injection h with h
  subst h
  match r with
  | [] => simp only [kindAt, getT] at h1 h2; rw [h1] at h2; exact Option.some.inj h2
  | k :: r =>
    simp only [kindAt, getT, lookupS, avSpecs] at h1 h2
    by_cases hk : k = "depth_max".toList
    · rw [if_pos hk] at h1 h2
      cases r with
      | nil => simp only [getT, Option.bind_some] at h1 h2; rw [h1] at h2; exact Option.some.inj h2
      | cons a r => simp [getT] at h1
    · rw [if_neg hk] at h1; simp at h1

example : AsksAfter (.str " After".toList) ∧ AsksNever (.str []) ∧ ¬ AsksAfter (.str "before".toList) ∧ ¬ AsksNever (.flag true) := by
  refine ⟨⟨" ".toList, 'A', "fter".toList, rfl, by decide, Or.inr rfl⟩, Or.inr rfl, ?_, by unfold AsksNever; simp⟩
  rw [← (C118_when _).1]
  decide +kernel

end Xoa
