import Verif.CfInheritProps

/-! # C45 (cycles, names, long names) and C46 (loading twice) -/

namespace Xoa

/-! ## C45: consequences and limits -/

/-- **C45 (names).** With the names `own` in the configuration and a parent that finally has the names
`l`, a specification finally has the names `own ++ l`: its own names first, in order. -/
theorem C45_names (c : CfCfg) (hw : WfCfg c) (ha : Acyclic c.ents) (k p : CfKey) (hi : Inherits c.ents k p) :
    ∃ N, ∀ limit, N ≤ limit → ∃ c' raw final parent own l, postProcess limit c = .ok c' ∧
      lookupE k c.ents = some raw ∧ lookupE k c'.ents = some final ∧ lookupE p c'.ents = some parent ∧
      lookupS kName raw = some (.flat (.list own)) ∧ lookupS kName parent = some (.flat (.list l)) ∧
      lookupS kName final = some (.flat (.list (own ++ l))) := by
  obtain ⟨N, h⟩ := C45_inheritance c hw ha
  have hi' := hi
  obtain ⟨rank, hr⟩ := ha
  obtain ⟨N2, hN2⟩ := rank_bound rank (c.ents.map (·.1))
  refine ⟨max N N2, fun limit hl => ?_⟩
  obtain ⟨c', h1, h2, h3⟩ := h limit (by omega)
  obtain ⟨raw, s, g1, g2, g3, g4⟩ := hi'
  obtain ⟨own, final, ho, hf, -, hp⟩ := h3 k raw g1
  obtain ⟨parent, p1, p2, p3⟩ := hp p hi
  obtain ⟨c'', q1, q2, q3, -⟩ := postProcess_ok c hw rank hr limit (fun k hk => by have := hN2 k hk; omega)
  rw [h1] at q1; injection q1 with q1; subst q1
  have hd := (q3 _ (mem_of_lookupE _ _ _ p1)).done c hw
  obtain ⟨l, hl'⟩ := hd.names
  obtain ⟨o, ho'⟩ := (hw.entries k raw g1).names
  refine ⟨c', raw, final, parent, o, l, h1, g1, hf, p1, ho', hl', ?_⟩
  have hk := (catKeys_has k.1 (hw.entries k raw g1).hcat).2.1
  have := ((p3 kName (by decide) (by decide)).2 (by rintro ⟨-, -, h | h | h⟩ <;> exact absurd h (by decide))).flat (.list o) (.list l)
    (by rw [ho.keys _ (by decide)]; exact ho') hl'
  obtain ⟨x, hx1, hx2⟩ := this
  rw [hx1, Option.some.inj (hx2.lists o l rfl rfl)]

/-- **C90, what the code does instead for long names.** A specification without a long name does not take
that of its parent first: a name made of its own name comes before. -/
theorem C90_long_name_violated (c : CfCfg) (hw : WfCfg c) (ha : Acyclic c.ents) (k p : CfKey) (hi : Inherits c.ents k p)
    (raw : CfEntry) (a : List (Str × FV)) (sn : List Str) (hraw : lookupE k c.ents = some raw) (hat : lookupS kAttrs raw = some (.dict a))
    (hln : lookupS kLong a = some (.list [])) (hsn : lookupS kStd a = some (.list sn)) :
    ∃ N, ∀ limit, N ≤ limit → ∃ c' final parent fa pa l, postProcess limit c = .ok c' ∧
      lookupE k c'.ents = some final ∧ lookupE p c'.ents = some parent ∧ lookupS kAttrs final = some (.dict fa) ∧
      lookupS kAttrs parent = some (.dict pa) ∧ lookupS kLong pa = some (.list l) ∧
      lookupS kLong fa = some (.list (capitalize (replaceC '_' ' ' (sn.headD k.2)) :: l)) := by
  obtain ⟨N, h⟩ := C45_inheritance c hw ha
  obtain ⟨rank, hr⟩ := ha
  obtain ⟨N2, hN2⟩ := rank_bound rank (c.ents.map (·.1))
  refine ⟨max N N2, fun limit hl => ?_⟩
  obtain ⟨c', h1, h2, h3⟩ := h limit (by omega)
  obtain ⟨own, final, ho, hf, -, hp⟩ := h3 k raw hraw
  obtain ⟨parent, p1, p2, p3⟩ := hp p hi
  obtain ⟨c'', q1, q2, q3, -⟩ := postProcess_ok c hw rank hr limit (fun k hk => by have := hN2 k hk; omega)
  rw [h1] at q1; injection q1 with q1; subst q1
  have hd := (q3 _ (mem_of_lookupE _ _ _ p1)).done c hw
  obtain ⟨pa, e1, -, ⟨l, e2⟩, -⟩ := hd.attrs
  obtain ⟨a1, b, l1, o1, o2, o3, o4, -, o5⟩ := ho.attrs
  rw [hat] at o1; injection o1 with o1; injection o1 with o1; subst o1
  rw [hln] at o4; injection o4 with o4; injection o4 with o4; subst o4
  obtain ⟨sn', u1, u2⟩ := o5 rfl
  rw [hsn] at u1; injection u1 with u1; injection u1 with u1; subst u1
  have hk := (catKeys_has k.1 (hw.entries k raw hraw).hcat).1
  obtain ⟨fa, f1, f2⟩ := ((p3 kAttrs (by decide) (by decide)).2 (by rintro ⟨-, -, h | h | h⟩ <;> exact absurd h (by decide))).dicts b pa o2 e1
  exact ⟨c', final, parent, fa, pa, l, h1, hf, p1, f1, e1, e2, by simpa using (f2 kLong).lists _ _ u2 e2⟩

/-- **C45 (cycles).** When the specifications of a set `S` of names all inherit from a name of `S` other than
themselves, loading any of them exhausts every recursion limit: it never ends with specifications. -/
theorem C45_cycle_never_ends (dims : CfDims) (S : CfKey → Prop) (limit : Nat) (D : CfEnts)
    (hwf : ∀ k e, lookupE k D = some e → WfEntry dims k.1 e)
    (hS : ∀ k, S k → ∃ p, Inherits D k p ∧ S p ∧ p ≠ k) (k : CfKey) (hk : S k) :
    processEntry limit D k = .error .recursion := by
  induction limit generalizing D k with
  | zero => rfl
  | succ n ih =>
    obtain ⟨p, ⟨e0, s, h1, h2, h3, h4⟩, hp, hne⟩ := hS k hk
    obtain ⟨e, b1, b2, b3, b4, -⟩ := prep_ok dims k.1 k.2 e0 (hwf k e0 h1)
    have ht : inheritText e = .ok (some s) := text_of_inherit e s (by rw [b4 _ (by decide)]; exact h2) h3
    have hr := ih (setE k e D) (by
        intro j e' hj
        rw [lookupE_setE] at hj
        split at hj
        · next hjk => injection hj with hj; subst hj; rw [hjk]; exact b2
        · exact hwf j e' hj) (by
        intro j hj
        obtain ⟨q, ⟨ej, sj, g1, g2, g3, g4⟩, gq, gne⟩ := hS j hj
        refine ⟨q, ?_, gq, gne⟩
        by_cases hjk : j = k
        · subst hjk
          rw [h1] at g1; injection g1 with g1; subst g1
          exact ⟨e, sj, by rw [lookupE_setE]; simp, by rw [b4 _ (by decide)]; exact g2, g3, g4⟩
        · exact ⟨ej, sj, by rw [lookupE_setE, if_neg hjk]; exact g1, g2, g3, g4⟩) p hp
    rw [← h4.symm.trans rfl] at hne
    simp only [processEntry, h1, b1, Except.bind, ht]
    subst h4
    rw [if_neg hne, hr]

/-- **C45 (self inheritance).** A specification that inherits from itself is refused. -/
theorem C45_self_refused (dims : CfDims) (limit : Nat) (D : CfEnts) (hwf : ∀ k e, lookupE k D = some e → WfEntry dims k.1 e)
    (k : CfKey) (h : Inherits D k k) : processEntry (limit + 1) D k = .error .assertion := by
  obtain ⟨e0, s, h1, h2, h3, h4⟩ := h
  obtain ⟨e, b1, b2, b3, b4, -⟩ := prep_ok dims k.1 k.2 e0 (hwf k e0 h1)
  have ht : inheritText e = .ok (some s) := text_of_inherit e s (by rw [b4 _ (by decide)]; exact h2) h3
  simp only [processEntry, h1, b1, Except.bind, ht]
  rw [if_pos h4.symm]

/-- **C45 (unknown parent).** A specification whose parent does not exist is refused. -/
theorem C45_unknown_parent_refused (dims : CfDims) (limit : Nat) (D : CfEnts) (hwf : ∀ k e, lookupE k D = some e → WfEntry dims k.1 e)
    (k p : CfKey) (h : Inherits D k p) (hp : lookupE p D = none) : processEntry (limit + 2) D k = .error .keyError := by
  obtain ⟨e0, s, h1, h2, h3, h4⟩ := h
  obtain ⟨e, b1, b2, b3, b4, -⟩ := prep_ok dims k.1 k.2 e0 (hwf k e0 h1)
  have ht : inheritText e = .ok (some s) := text_of_inherit e s (by rw [b4 _ (by decide)]; exact h2) h3
  have hpk : p ≠ k := by rintro rfl; rw [hp] at h1; simp at h1
  subst h4
  have : processEntry (limit + 1) (setE k e D) (parseInherit k.1 s) = .error .keyError := by
    rw [processEntry, lookupE_setE, if_neg hpk, hp]
  rw [processEntry, h1]
  simp only [b1, Except.bind, ht, if_neg hpk, this]

/-! ### a concrete configuration -/

def exNames (l : List String) : FV := .list (l.map String.toList)

def exEntry (names : List String) (inherit : Option String) (long std : List String) (axis : Option String) : CfEntry :=
  [(kName, .flat (exNames names)), ("domain".toList, .flat (.str "generic".toList)),
   (kInherit, .flat ((inherit.map (fun s => FV.str s.toList)).getD .none)),
   (kAttrs, .dict [(kLong, exNames long), (kStd, exNames std), ("units".toList, exNames []),
      (kAxis, (axis.map (fun s => FV.str s.toList)).getD .none)])]

/-- `sst` inherits from `temp`; `depth_u` inherits from `depth` -/
def exCfg : CfCfg where
  ents := [((cVars, "sst".toList), exEntry ["tos"] (some "temp") [] ["sea_surface_temperature"] none),
           ((cVars, "temp".toList), exEntry ["thetao", "t"] none ["Temperature"] [] none),
           ((cCoords, "depth_u".toList), exEntry [] (some "coords:depth") [] [] none),
           ((cCoords, "depth".toList), exEntry ["deptht"] none ["Depth"] ["depth"] (some "Z"))]
  dims := [("x".toList, []), ("z".toList, ["lev".toList])]

theorem exCfg_acyclic : Acyclic exCfg.ents := by
  refine ⟨fun k => if k.2 = "sst".toList ∨ k.2 = "depth_u".toList then 1 else 0, ?_⟩
  rintro k p ⟨e, s, h1, h2, h3, rfl⟩
  have hm := mem_of_lookupE _ _ _ h1
  simp only [exCfg, List.mem_cons, List.not_mem_nil, or_false, Prod.mk.injEq] at hm
  rcases hm with ⟨rfl, rfl⟩ | ⟨rfl, rfl⟩ | ⟨rfl, rfl⟩ | ⟨rfl, rfl⟩
  · have : s = "temp".toList := by
      have h : lookupS kInherit (exEntry ["tos"] (some "temp") [] ["sea_surface_temperature"] none) = some (.flat (.str "temp".toList)) := by decide +kernel
      rw [h] at h2; injection h2 with h2; injection h2 with h2; injection h2 with h2; exact h2.symm
    subst this; decide +kernel
  · have h : lookupS kInherit (exEntry ["thetao", "t"] none ["Temperature"] [] none) = some (.flat .none) := by decide +kernel
    rw [h] at h2; simp at h2
  · have : s = "coords:depth".toList := by
      have h : lookupS kInherit (exEntry [] (some "coords:depth") [] [] none) = some (.flat (.str "coords:depth".toList)) := by decide +kernel
      rw [h] at h2; injection h2 with h2; injection h2 with h2; injection h2 with h2; exact h2.symm
    subst this; decide +kernel
  · have h : lookupS kInherit (exEntry ["deptht"] none ["Depth"] ["depth"] (some "Z")) = some (.flat .none) := by decide +kernel
    rw [h] at h2; simp at h2

theorem exEntry_wf (dims : CfDims) (cat : Str) (hc : cat = cVars ∨ cat = cCoords) (names : List String) (inherit : Option String) (long std : List String)
    (axis : Option String) (hax : ∀ s, axis = some s → lookupS (lower s.toList) dims ≠ none) :
    WfEntry dims cat (exEntry names inherit long std axis) := by
  refine ⟨hc, ?_, ?_, ⟨_, rfl⟩, ?_, ?_⟩
  · show ([kName, "domain".toList, kInherit, kAttrs] : List Str).Nodup
    decide +kernel
  · intro f d hd
    have := mem_of_lookupS _ _ _ hd
    simp only [exEntry, List.mem_cons, Prod.mk.injEq, List.not_mem_nil, or_false, reduceCtorEq, and_false, false_or, SV.dict.injEq] at this
    rw [this.2]
    show ([kLong, kStd, "units".toList, kAxis] : List Str).Nodup
    decide +kernel
  · cases inherit with
    | none => right; left; rfl
    | some s => right; right; exact ⟨_, rfl⟩
  · refine ⟨_, rfl, ?_, ⟨_, rfl⟩, ⟨_, rfl⟩, ?_, ?_⟩
    · show ([kLong, kStd, "units".toList, kAxis] : List Str).Nodup
      decide +kernel
    · intro _ h; cases h
    · intro v hv
      have : v = (axis.map (fun s => FV.str s.toList)).getD .none := (Option.some.inj hv).symm
      cases axis with
      | none => left; exact this
      | some s => right; exact ⟨s.toList, this, fun _ => hax s rfl⟩

theorem exCfg_wf : WfCfg exCfg := by
  constructor
  · intro k e h
    have hm := mem_of_lookupE _ _ _ h
    simp only [exCfg, List.mem_cons, List.not_mem_nil, or_false, Prod.mk.injEq] at hm
    rcases hm with ⟨rfl, rfl⟩ | ⟨rfl, rfl⟩ | ⟨rfl, rfl⟩ | ⟨rfl, rfl⟩
    · exact exEntry_wf _ _ (Or.inl rfl) _ _ _ _ _ (by simp)
    · exact exEntry_wf _ _ (Or.inl rfl) _ _ _ _ _ (by simp)
    · exact exEntry_wf _ _ (Or.inr rfl) _ _ _ _ _ (by simp)
    · exact exEntry_wf _ _ (Or.inr rfl) _ _ _ _ _ (by rintro s h; injection h with h; subst h; decide +kernel)
  · rintro k p ⟨e, s, h1, h2, h3, rfl⟩
    have hm := mem_of_lookupE _ _ _ h1
    simp only [exCfg, List.mem_cons, List.not_mem_nil, or_false, Prod.mk.injEq] at hm
    rcases hm with ⟨rfl, rfl⟩ | ⟨rfl, rfl⟩ | ⟨rfl, rfl⟩ | ⟨rfl, rfl⟩
    · have : s = "temp".toList := by
        have h : lookupS kInherit (exEntry ["tos"] (some "temp") [] ["sea_surface_temperature"] none) = some (.flat (.str "temp".toList)) := by decide +kernel
        rw [h] at h2; injection h2 with h2; injection h2 with h2; injection h2 with h2; exact h2.symm
      subst this; decide +kernel
    · have h : lookupS kInherit (exEntry ["thetao", "t"] none ["Temperature"] [] none) = some (.flat .none) := by decide +kernel
      rw [h] at h2; simp at h2
    · have : s = "coords:depth".toList := by
        have h : lookupS kInherit (exEntry [] (some "coords:depth") [] [] none) = some (.flat (.str "coords:depth".toList)) := by decide +kernel
        rw [h] at h2; injection h2 with h2; injection h2 with h2; injection h2 with h2; exact h2.symm
      subst this; decide +kernel
    · have h : lookupS kInherit (exEntry ["deptht"] none ["Depth"] ["depth"] (some "Z")) = some (.flat .none) := by decide +kernel
      rw [h] at h2; simp at h2

/-- the loaded configuration: parents come first, `depth_u` is now a vertical coordinate -/
theorem C45_example : (postProcess 3 exCfg).toOption.map (fun c => (c.ents.map (fun p => (p.1.2, lookupS kName p.2)), c.dims)) =
    some ([("temp".toList, some (.flat (exNames ["thetao", "t"]))), ("sst".toList, some (.flat (exNames ["tos", "thetao", "t"]))),
      ("depth".toList, some (.flat (exNames ["deptht"]))), ("depth_u".toList, some (.flat (exNames ["deptht"])))],
      [("x".toList, []), ("z".toList, (["lev", "depth", "deptht", "depth_u", "deptht"].map String.toList))]) := by decide +kernel

/-! ## C46 -/

/-- all the entries are processed, in the order in which they are refilled -/
structure LoadedCfg (c : CfCfg) : Prop where
  done : ∀ p ∈ c.ents, DoneEntry c.dims p.1.1 p.2
  nodup : (c.ents.map (·.1)).Nodup
  order : ∃ A B, c.ents = A ++ B ∧ (∀ p ∈ A, p.1.1 = cVars) ∧ (∀ p ∈ B, p.1.1 = cCoords)

theorem wf_dims_mono (dims dims' : CfDims) (cat : Str) (e : CfEntry) (h : WfEntry dims cat e)
    (hd : ∀ t, lookupS t dims ≠ none → lookupS t dims' ≠ none) : WfEntry dims' cat e := by
  obtain ⟨a, a1, a2, a3, a4, a5, a6⟩ := h.attrs
  refine ⟨h.hcat, h.nodup, h.dicts, h.names, h.inherit, a, a1, a2, a3, a4, a5, ?_⟩
  intro v hv
  rcases a6 v hv with h | ⟨s, h1, h2⟩
  · exact Or.inl h
  · exact Or.inr ⟨s, h1, fun hs => hd _ (h2 hs)⟩

theorem loaded_post (c : CfCfg) (hw : WfCfg c) (ha : Acyclic c.ents) :
    ∃ N, ∀ limit, N ≤ limit → ∃ c', postProcess limit c = .ok c' ∧ LoadedCfg c' ∧
      ∀ t, lookupS t c'.dims = (lookupS t c.dims).map (· ++ dimsOfEnts t c'.ents) := by
  obtain ⟨rank, hr⟩ := ha
  obtain ⟨N2, hN2⟩ := rank_bound rank (c.ents.map (·.1))
  refine ⟨N2, fun limit hl => ?_⟩
  obtain ⟨c', q1, q2, q3, q4, q5, q6⟩ := postProcess_ok c hw rank hr limit (fun k hk => by have := hN2 k hk; omega)
  refine ⟨c', q1, ⟨?_, q4, q5⟩, q6⟩
  intro p hp
  have hd := (q3 p hp).done c hw
  exact ⟨wf_dims_mono _ _ _ _ hd.toWfEntry (by
    intro t ht
    rw [q6]
    cases h : lookupS t c.dims with
    | none => exact absurd h ht
    | some x => simp), hd.noInherit, hd.long, hd.marked⟩

theorem lookupE_of_mem_nodup (D : CfEnts) (hn : (D.map (·.1)).Nodup) (k : CfKey) (e : CfEntry) (h : (k, e) ∈ D) : lookupE k D = some e := by
  induction D with
  | nil => simp at h
  | cons p D ih =>
    obtain ⟨a, b⟩ := p
    simp only [List.map_cons, List.nodup_cons] at hn
    rcases List.mem_cons.1 h with h | h
    · injection h with h1 h2; subst h1; subst h2; simp [lookupE]
    · have : k ≠ a := by intro hk; exact hn.1 (List.mem_map.2 ⟨(k, e), h, hk⟩)
      simp only [lookupE, if_neg this]; exact ih hn.2 h

theorem processAll_done (dims : CfDims) (n : Nat) (D : CfEnts) (l : CfEnts) (hl : ∀ p ∈ l, lookupE p.1 D = some p.2 ∧ DoneEntry dims p.1.1 p.2) :
    processAll (n + 1) D (l.map (·.1)) = .ok (D, l) := by
  induction l with
  | nil => rfl
  | cons p l ih =>
    obtain ⟨k, e⟩ := p
    have := hl (k, e) (by simp)
    simp only [List.map_cons, processAll, process_done dims n D k e this.1 this.2, Except.bind,
      ih (fun p hp => hl p (List.mem_cons_of_mem _ hp)), List.cons_append, List.nil_append]

theorem refill_nodup (l acc : CfEnts) (hn : ((acc ++ l).map (·.1)).Nodup) : l.foldl (fun d p => setE p.1 p.2 d) acc = acc ++ l := by
  induction l generalizing acc with
  | nil => simp
  | cons p l ih =>
    have hs : ∀ (acc : CfEnts), p.1 ∉ acc.map (·.1) → setE p.1 p.2 acc = acc ++ [p] := by
      intro acc
      induction acc with
      | nil => intro _; rfl
      | cons q acc ih2 =>
        intro h
        simp only [List.map_cons, List.mem_cons, not_or] at h
        obtain ⟨a, b⟩ := q
        simp only [setE, if_neg h.1, ih2 h.2, List.cons_append]
    rw [List.foldl_cons, hs, ih]
    · simp
    · simpa using hn
    · intro hm
      rw [List.map_append, List.nodup_append] at hn
      exact hn.2.2 _ hm p.1 (by simp) rfl

theorem keysOf_eq (cat : Str) (D : CfEnts) : keysOf cat D = (D.filter (fun p => p.1.1 = cat)).map (·.1) := by
  unfold keysOf
  rw [List.filter_map]
  rfl

/-- loading loaded specifications changes the dimensions only -/
theorem post_loaded (n : Nat) (c : CfCfg) (h : LoadedCfg c) :
    ∃ c', postProcess (n + 1) c = .ok c' ∧ c'.ents = c.ents ∧ LoadedCfg c' ∧
      ∀ t, lookupS t c'.dims = (lookupS t c.dims).map (· ++ dimsOfEnts t c.ents) := by
  obtain ⟨A, B, hAB, hA, hB⟩ := h.order
  have fA : c.ents.filter (fun p => decide (p.1.1 = cVars)) = A := by
    rw [hAB, List.filter_append, List.filter_eq_self.2 (fun p hp => by simp [hA p hp]), List.filter_eq_nil_iff.2, List.append_nil]
    intro p hp
    have : p.1.1 ≠ cVars := by rw [hB p hp]; decide
    simp [this]
  have fB : c.ents.filter (fun p => decide (p.1.1 = cCoords)) = B := by
    rw [hAB, List.filter_append, (List.filter_eq_self (l := B)).2 (fun p hp => by simp [hB p hp]), List.filter_eq_nil_iff.2, List.nil_append]
    intro p hp
    have : p.1.1 ≠ cCoords := by rw [hA p hp]; decide
    simp [this]
  have hl : ∀ p ∈ c.ents, lookupE p.1 c.ents = some p.2 ∧ DoneEntry c.dims p.1.1 p.2 := fun p hp =>
    ⟨lookupE_of_mem_nodup _ h.nodup p.1 p.2 hp, h.done p hp⟩
  have r1 : processAll (n + 1) c.ents (keysOf cVars c.ents) = .ok (c.ents, A) := by
    rw [keysOf_eq, fA]
    exact processAll_done c.dims n c.ents A (fun p hp => hl p (by rw [hAB]; exact List.mem_append_left _ hp))
  have r2 : processAll (n + 1) c.ents (keysOf cCoords c.ents) = .ok (c.ents, B) := by
    rw [keysOf_eq, fB]
    exact processAll_done c.dims n c.ents B (fun p hp => hl p (by rw [hAB]; exact List.mem_append_right _ hp))
  have hn := h.nodup
  rw [hAB, List.map_append, List.nodup_append] at hn
  have e1 : refill A = A := by have := refill_nodup A [] (by simpa using hn.1); rw [refill, this]; rfl
  have e2 : refill B = B := by have := refill_nodup B [] (by simpa using hn.2.1); rw [refill, this]; rfl
  obtain ⟨d', u1, u2⟩ := updateDims_ok c.dims c.ents (fun p hp => (h.done p hp).toWfEntry) c.dims (fun _ h => h)
  refine ⟨⟨c.ents, d'⟩, ?_, rfl, ⟨?_, h.nodup, h.order⟩, u2⟩
  · show (processAll (n + 1) c.ents (keysOf cVars c.ents)).bind _ = _
    rw [r1]
    show (processAll (n + 1) c.ents (keysOf cCoords c.ents)).bind _ = _
    rw [r2]
    show (updateDims (refill (List.filter (fun p => decide (p.1.1 = cVars)) (A ++ B)) ++ refill (List.filter (fun p => decide (p.1.1 = cCoords)) (A ++ B))) c.dims).bind _ = _
    rw [← hAB, fA, fB, e1, e2, ← hAB, u1]
    rfl
  · intro p hp
    have hd := h.done p hp
    exact ⟨wf_dims_mono _ _ _ _ hd.toWfEntry (by
      intro t ht
      rw [u2]
      cases h : lookupS t c.dims with
      | none => exact absurd h ht
      | some x => simp), hd.noInherit, hd.long, hd.marked⟩

theorem reload_loaded (limit : Nat) (n : Nat) (c : CfCfg) (h : LoadedCfg c) :
    ∃ c', reload (limit + 1) n c = .ok c' ∧ c'.ents = c.ents ∧
      ∀ t, lookupS t c'.dims = (lookupS t c.dims).map (· ++ (List.replicate n (dimsOfEnts t c.ents)).flatten) := by
  induction n generalizing c with
  | zero => exact ⟨c, rfl, rfl, fun t => by simp⟩
  | succ n ih =>
    obtain ⟨c1, h1, h2, h3, h4⟩ := post_loaded limit c h
    obtain ⟨c2, g1, g2, g3⟩ := ih c1 h3
    refine ⟨c2, ?_, g2.trans h2, ?_⟩
    · simp only [reload, loadDefault, h1, Except.bind, g1]
    · intro t
      rw [g3, h4, h2]
      cases lookupS t c.dims <;> simp [List.replicate_succ, List.append_assoc]

/-- **C46.** Loading the default configuration any number of times in the same
session gives the same specifications of variables and coordinates, in the same order. -/
theorem C46_entries (c : CfCfg) (hw : WfCfg c) (ha : Acyclic c.ents) :
    ∃ N, ∀ limit, N ≤ limit → ∃ c1, loadDefault limit c = .ok c1 ∧
      ∀ n, ∃ cn, reload limit (n + 1) c = .ok cn ∧ cn.ents = c1.ents := by
  obtain ⟨N, h⟩ := loaded_post c hw ha
  refine ⟨N + 1, fun limit hl => ?_⟩
  obtain ⟨c1, h1, h2, h3⟩ := h limit (by omega)
  refine ⟨c1, h1, fun n => ?_⟩
  obtain ⟨m, rfl⟩ : ∃ m, limit = m + 1 := ⟨limit - 1, by omega⟩
  obtain ⟨c2, g1, g2, g3⟩ := reload_loaded m n c1 h2
  exact ⟨c2, by simp only [reload, loadDefault, h1, Except.bind, g1], g2⟩

/-- **C91, what the code does instead.** The dimensions of a type grow at each load: after `n` loads of the
default configuration they are those of the configuration followed by `n` copies of the names of the
coordinates of this axis. -/
theorem C91_dims_grow_violated (c : CfCfg) (hw : WfCfg c) (ha : Acyclic c.ents) :
    ∃ N, ∀ limit, N ≤ limit → ∃ c1, loadDefault limit c = .ok c1 ∧
      ∀ n, ∃ cn, reload limit n c = .ok cn ∧
        ∀ t l, lookupS t c.dims = some l → lookupS t cn.dims = some (l ++ (List.replicate n (dimsOfEnts t c1.ents)).flatten) := by
  obtain ⟨N, h⟩ := loaded_post c hw ha
  refine ⟨N + 1, fun limit hl => ?_⟩
  obtain ⟨c1, h1, h2, h3⟩ := h limit (by omega)
  refine ⟨c1, h1, fun n => ?_⟩
  cases n with
  | zero => exact ⟨c, rfl, fun t l ht => by simp [ht]⟩
  | succ n =>
    obtain ⟨m, rfl⟩ : ∃ m, limit = m + 1 := ⟨limit - 1, by omega⟩
    obtain ⟨c2, g1, g2, g3⟩ := reload_loaded m n c1 h2
    refine ⟨c2, by simp only [reload, loadDefault, h1, Except.bind, g1], ?_⟩
    intro t l ht
    rw [g3, h3, ht]
    simp [List.replicate_succ, List.append_assoc]

/-- a coordinate with the axis `t` is enough for two loads to differ -/
theorem C91_two_loads_differ_violated (c : CfCfg) (hw : WfCfg c) (ha : Acyclic c.ents) (t : Str) (l : List Str)
    (ht : lookupS t c.dims = some l) :
    ∃ N, ∀ limit, N ≤ limit → ∃ c1 c2, reload limit 1 c = .ok c1 ∧ reload limit 2 c = .ok c2 ∧
      (dimsOfEnts t c1.ents ≠ [] → lookupS t c1.dims ≠ lookupS t c2.dims) := by
  obtain ⟨N, h⟩ := C91_dims_grow_violated c hw ha
  obtain ⟨N2, h'⟩ := C46_entries c hw ha
  refine ⟨max N N2, fun limit hl => ?_⟩
  obtain ⟨c1, a1, a2⟩ := h limit (by omega)
  obtain ⟨x1, b1, b2⟩ := a2 1
  obtain ⟨x2, d1, d2⟩ := a2 2
  refine ⟨x1, x2, b1, d1, ?_⟩
  have : x1 = c1 := by
    simp only [reload, a1, Except.bind, Except.ok.injEq] at b1; exact b1.symm
  subst this
  intro hne heq
  rw [b2 t l ht, d2 t l ht] at heq
  simp [List.replicate_succ] at heq
  exact hne heq

theorem C91_example : (reload 3 2 exCfg).toOption.map (fun c => lookupS "z".toList c.dims) =
    some (some (["lev", "depth", "deptht", "depth_u", "deptht", "depth", "deptht", "depth_u", "deptht"].map String.toList)) := by decide +kernel

/-- **C91 (pairs).** A configuration given with a cache key is loaded the first time; the second time the
same call fails with a `KeyError`, unless the configuration itself happens to be a key of the cache. -/
theorem C91_pair_reload_violated {α : Type} (parse : Str → α) (cache : List (Str × α)) (key cfg : Str)
    (hk : lookupS key cache = none) (hc : lookupS cfg cache = none) (hne : cfg ≠ key) :
    ∃ d cache', loadPair parse cache key cfg = .ok (d, cache') ∧ loadPair parse cache' key cfg = .error .keyError := by
  refine ⟨parse cfg, setS key (parse cfg) cache, ?_, ?_⟩
  · simp [loadPair, hk]
  · have h1 : lookupS key (setS key (parse cfg) cache) = some (parse cfg) := by rw [lookupS_setS]; simp
    have h2 : lookupS cfg (setS key (parse cfg) cache) = none := by rw [lookupS_setS, if_neg hne]; exact hc
    simp [loadPair, h1, pyItem, h2, Except.bind]

/-! ### C130: copies -/

/-- **C130.** A copy of loaded specifications has the same variables and coordinates, with the same
specifications, in the same order; and it is the same for the copy of a copy, and so on. -/
theorem C130_copy_entries (c : CfCfg) (hw : WfCfg c) (ha : Acyclic c.ents) :
    ∃ N, ∀ limit, N ≤ limit → ∃ c1 c2, loadDefault limit c = .ok c1 ∧ copySpecs limit c1 = .ok c2 ∧ c2.ents = c1.ents := by
  obtain ⟨N, hN⟩ := C46_entries c hw ha
  refine ⟨N, fun limit hl => ?_⟩
  obtain ⟨c1, h1, h2⟩ := hN limit hl
  obtain ⟨c2, h3, h4⟩ := h2 1
  have : reload limit 2 c = copySpecs limit c1 := by
    show (loadDefault limit c).bind (fun c => (loadDefault limit c).bind (reload limit 0)) = _
    rw [h1]
    show (loadDefault limit c1).bind (reload limit 0) = postProcess limit c1
    unfold loadDefault
    cases postProcess limit c1 <;> rfl
  exact ⟨c1, c2, h1, this ▸ h3, h4⟩

/-- **C130 is violated** for the known dimensions: those of the copy are those of the first one, followed again
by the names of the coordinates of this axis. -/
theorem C130_copy_dims_violated (c : CfCfg) (hw : WfCfg c) (ha : Acyclic c.ents) :
    ∃ N, ∀ limit, N ≤ limit → ∃ c1 c2, loadDefault limit c = .ok c1 ∧ copySpecs limit c1 = .ok c2 ∧
      ∀ t l, lookupS t c.dims = some l → lookupS t c1.dims = some (l ++ dimsOfEnts t c1.ents) ∧
        lookupS t c2.dims = some (l ++ dimsOfEnts t c1.ents ++ dimsOfEnts t c1.ents) := by
  obtain ⟨N, hN⟩ := C91_dims_grow_violated c hw ha
  refine ⟨N, fun limit hl => ?_⟩
  obtain ⟨c1, h1, h2⟩ := hN limit hl
  obtain ⟨d1, h3, h4⟩ := h2 1
  obtain ⟨c2, h5, h6⟩ := h2 2
  have e1 : reload limit 1 c = .ok c1 := by
    show (loadDefault limit c).bind (reload limit 0) = _
    rw [h1]; rfl
  rw [e1] at h3
  cases h3
  have : reload limit 2 c = copySpecs limit c1 := by
    show (loadDefault limit c).bind (fun c => (loadDefault limit c).bind (reload limit 0)) = _
    rw [h1]
    show (loadDefault limit c1).bind (reload limit 0) = postProcess limit c1
    unfold loadDefault
    cases postProcess limit c1 <;> rfl
  refine ⟨c1, c2, h1, this ▸ h5, fun t l ht => ⟨?_, ?_⟩⟩
  · simpa using h4 t l ht
  · have := h6 t l ht
    rw [this]
    simp [List.replicate_succ, List.append_assoc]

theorem C130_example : ((loadDefault 3 exCfg).toOption.bind fun c => (copySpecs 3 c).toOption.map fun c2 => (decide (c2.ents = c.ents), decide (c2.dims = c.dims))) =
    some (true, false) := by decide +kernel

end Xoa
