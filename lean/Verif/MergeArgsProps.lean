import Verif.MergeArgs
import Verif.MergeListsProps

/-!
# C194: the arguments of `dict_merge`
-/

namespace Xoa

theorem flatten_truthy (dd : List MArg) :
    (((dd.filter (·.truthy)).filter (fun d => d.cls.isDict)).map (·.items)).flatten = (((dd.filter (fun d => d.cls.isDict)).map (·.items)).flatten) := by
  induction dd with
  | nil => rfl
  | cons d dd ih =>
    by_cases hd : d.cls.isDict = true
    · by_cases ht : d.truthy = true
      · simp only [List.filter_cons, hd, ht, if_true, List.map_cons, List.flatten_cons, ih]
      · have hi : d.items = [] := by
          unfold MArg.truthy at ht
          simp only [hd, if_true, Bool.not_eq_true, Bool.not_eq_false', List.isEmpty_iff] at ht
          exact ht
        simp only [List.filter_cons, hd, ht, if_true, List.map_cons, List.flatten_cons, hi, List.nil_append, if_false, Bool.false_eq_true]
        exact ih
    · by_cases ht : d.truthy = true
      · simp only [List.filter_cons, hd, ht, if_true, if_false, Bool.false_eq_true]; exact ih
      · simp only [List.filter_cons, hd, ht, if_false, Bool.false_eq_true]; exact ih

theorem merge_truthy (o : MergeOpts) (h : Heap) (dd : List MArg) :
    dictMerge o h (((dd.filter (·.truthy)).filter (fun d => d.cls.isDict)).map (·.items)) = dictMerge o h ((dd.filter (fun d => d.cls.isDict)).map (·.items)) := by
  unfold dictMerge
  rw [mergeAll_flatten, mergeAll_flatten, flatten_truthy]

/-- **C194** (items): whenever `dict_merge` returns a dictionary, its items are the merge, in order, of the dictionaries among its arguments: empty dictionaries, false values and all that is not a
dictionary do not count. -/
theorem C194_items (o : MergeOpts) (h : Heap) (cls : Option MCls) (dd : List MArg) (h' : Heap) (out : MOut)
    (hr : dictMergeArgs o h cls dd = .ok (h', out)) (hc : out.cls.isDict = true) :
    (h', out.items) = dictMerge o h ((dd.filter (fun d => d.cls.isDict)).map (·.items)) := by
  unfold dictMergeArgs mergeInto at hr
  simp only [merge_truthy] at hr
  generalize (cls.getD (mergeCls (dd.filter (·.truthy)))) = c at hr
  split at hr
  · cases hr
  · split at hr
    · rename_i hnd
      split at hr
      · obtain ⟨-, rfl⟩ := Prod.mk.inj (Except.ok.inj hr)
        exact absurd hc (by simp [hnd])
      · cases hr
    · split at hr
      · split at hr
        · cases hr
        · obtain ⟨rfl, rfl⟩ := Prod.mk.inj (Except.ok.inj hr)
          rfl
      · obtain ⟨rfl, rfl⟩ := Prod.mk.inj (Except.ok.inj hr)
        rfl

/-- **C194** (class): when all the arguments that are true are dictionaries, and no class is given, `dict_merge` succeeds and the class of the result is that of the first argument, among those
that are not empty, whose class is not `dict`, or `dict` when there is none. -/
theorem C194_class (o : MergeOpts) (h : Heap) (dd : List MArg) (hd : ∀ d ∈ dd, d.truthy = true → d.cls.isDict = true) :
    ∃ h' out, dictMergeArgs o h none dd = .ok (h', out) ∧ out.cls.isDict = true ∧
      ((∃ a d b, dd = a ++ d :: b ∧ (∀ e ∈ a, e.truthy = true → e.cls = .dict) ∧ d.truthy = true ∧ d.cls ≠ .dict ∧ out.cls = d.cls) ∨
       ((∀ d ∈ dd, d.truthy = true → d.cls = .dict) ∧ out.cls = .dict)) := by
  have key : (∃ a d b, dd = a ++ d :: b ∧ (∀ e ∈ a, e.truthy = true → e.cls = .dict) ∧ d.truthy = true ∧ d.cls ≠ .dict ∧ mergeCls (dd.filter (·.truthy)) = d.cls) ∨
       ((∀ d ∈ dd, d.truthy = true → d.cls = .dict) ∧ mergeCls (dd.filter (·.truthy)) = .dict) := by
    clear hd
    induction dd with
    | nil => right; exact ⟨by simp, rfl⟩
    | cons d dd ih =>
      by_cases ht : d.truthy = true
      · by_cases hc : d.cls = .dict
        · have em : mergeCls ((d :: dd).filter (·.truthy)) = mergeCls (dd.filter (·.truthy)) := by
            simp [mergeCls, ht, hc]
          rw [em]
          rcases ih with ⟨a, e, b, h1, h2, h3, h4, h5⟩ | ⟨h1, h2⟩
          · left
            refine ⟨d :: a, e, b, by rw [h1]; rfl, ?_, h3, h4, h5⟩
            intro x hx
            rcases List.mem_cons.mp hx with rfl | hx
            · exact fun _ => hc
            · exact h2 x hx
          · right
            refine ⟨?_, h2⟩
            intro x hx
            rcases List.mem_cons.mp hx with rfl | hx
            · exact fun _ => hc
            · exact h1 x hx
        · left
          refine ⟨[], d, dd, rfl, by simp, ht, hc, ?_⟩
          simp [mergeCls, ht, hc]
      · have em : ((d :: dd).filter (·.truthy)) = dd.filter (·.truthy) := by simp [ht]
        rw [em]
        rcases ih with ⟨a, e, b, h1, h2, h3, h4, h5⟩ | ⟨h1, h2⟩
        · left
          refine ⟨d :: a, e, b, by rw [h1]; rfl, ?_, h3, h4, h5⟩
          intro x hx
          rcases List.mem_cons.mp hx with rfl | hx
          · exact fun hh => absurd hh ht
          · exact h2 x hx
        · right
          refine ⟨?_, h2⟩
          intro x hx
          rcases List.mem_cons.mp hx with rfl | hx
          · exact fun hh => absurd hh ht
          · exact h1 x hx
  have hdict : (mergeCls (dd.filter (·.truthy))).isDict = true := by
    rcases key with ⟨a, d, b, rfl, -, h3, -, h5⟩ | ⟨-, h2⟩
    · rw [h5]; exact hd d (by simp) h3
    · rw [h2]; rfl
  have hsome : mergeCls (dd.filter (·.truthy)) = .dict ∨ ∃ d ∈ dd.filter (·.truthy), d.cls = mergeCls (dd.filter (·.truthy)) := by
    rcases key with ⟨a, d, b, rfl, -, h3, -, h5⟩ | ⟨-, h2⟩
    · right; exact ⟨d, by simp [h3], h5.symm⟩
    · left; exact h2
  have fin : ∃ h' out, dictMergeArgs o h none dd = .ok (h', out) ∧ out.cls = mergeCls (dd.filter (·.truthy)) := by
    unfold dictMergeArgs mergeInto
    simp only [Option.getD_none]
    generalize mergeCls (dd.filter (·.truthy)) = c at *
    have h1 : ¬ (c = .section ∧ !((dd.filter (·.truthy)).any (fun d => d.cls = .section || d.cls = .config))) := by
      rintro ⟨rfl, h2⟩
      rcases hsome with h3 | ⟨d, hd1, hd2⟩
      · cases h3
      · have : (dd.filter (·.truthy)).any (fun d => d.cls = .section || d.cls = .config) = true := List.any_eq_true.mpr ⟨d, hd1, by simp [hd2]⟩
        rw [this] at h2; cases h2
    rw [if_neg h1, if_neg (by rw [hdict]; simp)]
    by_cases hcf : c = .config
    · rw [if_pos hcf]
      cases hl : (dd.filter (·.truthy)).getLast? with
      | none =>
        rw [List.getLast?_eq_none_iff] at hl
        rcases hsome with h3 | ⟨d, hd1, -⟩
        · rw [hcf] at h3; cases h3
        · rw [hl] at hd1; cases hd1
      | some d => exact ⟨_, _, rfl, hcf.symm⟩
    · rw [if_neg hcf]; exact ⟨_, _, rfl, rfl⟩
  obtain ⟨h', out, hr, hcl⟩ := fin
  refine ⟨h', out, hr, by rw [hcl]; exact hdict, ?_⟩
  rw [hcl]; exact key

/-- **C194** (given class): when a dictionary class is given, arguments that are not dictionaries are skipped, and the result has the given class. (For `Section`, an argument that counts must be a `Section`; for
`ConfigObj`, some argument must be true.) -/
theorem C194_given (o : MergeOpts) (h : Heap) (c : MCls) (dd : List MArg) (hc : c.isDict = true)
    (hs : c = .section → ∃ d ∈ dd, d.truthy = true ∧ (d.cls = .section ∨ d.cls = .config)) (hcf : c = .config → ∃ d ∈ dd, d.truthy = true) :
    ∃ out, dictMergeArgs o h (some c) dd = .ok ((dictMerge o h ((dd.filter (fun d => d.cls.isDict)).map (·.items))).1, out) ∧ out.cls = c ∧
      out.items = (dictMerge o h ((dd.filter (fun d => d.cls.isDict)).map (·.items))).2 := by
  unfold dictMergeArgs mergeInto
  simp only [merge_truthy, Option.getD_some]
  have h1 : ¬ (c = .section ∧ !((dd.filter (·.truthy)).any (fun d => d.cls = .section || d.cls = .config))) := by
    rintro ⟨rfl, h2⟩
    obtain ⟨d, hd, ht, hk⟩ := hs rfl
    have : (dd.filter (·.truthy)).any (fun d => d.cls = .section || d.cls = .config) = true :=
      List.any_eq_true.mpr ⟨d, by simp [hd, ht], by simpa using hk⟩
    rw [this] at h2; cases h2
  rw [if_neg h1, if_neg (by rw [hc]; simp)]
  by_cases hcc : c = .config
  · rw [if_pos hcc]
    obtain ⟨d, hd, ht⟩ := hcf hcc
    cases hl : (dd.filter (·.truthy)).getLast? with
    | none =>
      rw [List.getLast?_eq_none_iff] at hl
      have : d ∈ dd.filter (·.truthy) := by simp [hd, ht]
      rw [hl] at this; cases this
    | some d => exact ⟨_, rfl, hcc.symm, rfl⟩
  · rw [if_neg hcc]; exact ⟨_, rfl, rfl, rfl⟩

-- `dict_merge([1], {"a": 1}, OrderedDict(b=2), cls=dict)`: the list is skipped
example (h : Heap) : ∃ out, dictMergeArgs {} h (some .dict) [{ cls := .other 0 }, { cls := .dict, items := [("a", .atom (.int 1))] }, { cls := .sub 0, items := [("b", .atom (.int 2))] }] = .ok (h, out) ∧
    out.cls = .dict ∧ out.items = [("a", .atom (.int 1)), ("b", .atom (.int 2))] :=
  C194_given {} h .dict _ rfl (by simp) (by simp)

-- `dict_merge({"a": 1}, OrderedDict(), OrderedDict(b=2))` is an `OrderedDict`
example (h : Heap) : ∃ h' out, dictMergeArgs {} h none [{ cls := .dict, items := [("a", .atom (.int 1))] }, { cls := .sub 0 }, { cls := .sub 0, items := [("b", .atom (.int 2))] }] = .ok (h', out) ∧
    out.cls = .sub 0 :=
  ⟨_, _, rfl, rfl⟩

/-- **C194**: a `Section` cannot be made without one. -/
theorem C194_section (o : MergeOpts) (h : Heap) (dd : List MArg) (hs : ∀ d ∈ dd, d.truthy = true → d.cls ≠ .section ∧ d.cls ≠ .config) :
    dictMergeArgs o h (some .section) dd = .error .xoaError := by
  unfold dictMergeArgs mergeInto
  simp only [Option.getD_some]
  rw [if_pos]
  refine ⟨trivial, ?_⟩
  rw [Bool.not_eq_true', List.any_eq_false]
  intro d hd
  simp only [List.mem_filter] at hd
  have := hs d hd.1 hd.2
  simp [this.1, this.2]

/-- **C194 is violated** by arguments that are not dictionaries: they are documented as skipped, but the class of the result is taken from them. When such an argument, true, comes before any dictionary of a class other than
`dict`, and some dictionary has an item that counts, there is a `TypeError`. -/
theorem C194_not_dict_violated (o : MergeOpts) (h : Heap) (a b : List MArg) (x : MArg) (hx : x.cls.isDict = false) (ht : x.truth = true)
    (ha : ∀ d ∈ a, d.truthy = true → d.cls = .dict) (d : MArg) (hd : d ∈ a ++ b) (hdd : d.cls.isDict = true) (k : String) (v : PV)
    (hk : (k, v) ∈ d.items) (hv : v ≠ .none) (hn : ∀ e ∈ a ++ b, (e.items.map (·.1)).Nodup) :
    dictMergeArgs o h none (a ++ x :: b) = .error .typeError := by
  have hxt : x.truthy = true := by unfold MArg.truthy; rw [hx]; simpa using ht
  have hxd : x.cls ≠ .dict := by intro he; rw [he] at hx; cases hx
  have hm : mergeCls ((a ++ x :: b).filter (·.truthy)) = x.cls := by
    rw [List.filter_append, List.filter_cons, if_pos hxt]
    unfold mergeCls
    rw [List.map_append, List.find?_append, List.map_cons, List.find?_cons]
    have : ((a.filter (·.truthy)).map (·.cls)).find? (fun c => c ≠ .dict) = none := by
      rw [List.find?_eq_none]
      intro c hc
      obtain ⟨e, he, rfl⟩ := List.mem_map.mp hc
      simp only [List.mem_filter] at he
      simp [ha e he.1 he.2]
    rw [this]
    simp [hxd]
  have hmem : k ∈ (dictMerge o h (((a ++ x :: b).filter (fun d => d.cls.isDict)).map (·.items))).2.map (·.1) := by
    have hf : (a ++ x :: b).filter (fun d => d.cls.isDict) = (a ++ b).filter (fun d => d.cls.isDict) := by
      rw [List.filter_append, List.filter_append, List.filter_cons, if_neg (by rw [hx]; simp)]
    rw [hf]
    refine (C49_keys_any o h _ ?_ k).mpr ⟨d.items, List.mem_map.mpr ⟨d, by simp [List.mem_append.mp hd, hdd], rfl⟩, v, ?_, fun _ => hv⟩
    · intro e he
      obtain ⟨e', he', rfl⟩ := List.mem_map.mp he
      exact hn e' (List.mem_of_mem_filter he')
    · exact lookupK_of_mem k v d.items (hn d hd) hk
  unfold dictMergeArgs mergeInto
  simp only [merge_truthy, Option.getD_none, hm]
  rw [if_neg (by rintro ⟨h1, -⟩; rw [h1] at hx; cases hx), if_pos hx, if_neg]
  intro he
  rw [he] at hmem
  cases hmem

/-- a case of it: `dict_merge({"a": 1}, [1, 2])` -/
example (h : Heap) : dictMergeArgs {} h none [{ cls := .dict, items := [("a", .atom (.int 1))] }, { cls := .other 0 }] = .error .typeError :=
  C194_not_dict_violated {} h [{ cls := .dict, items := [("a", .atom (.int 1))] }] [] { cls := .other 0 } rfl rfl (by simp) _
    (List.mem_singleton.mpr rfl) rfl "a" (.atom (.int 1)) (List.mem_singleton.mpr rfl) (by simp) (by simp)

/-- **C194 is violated** by the comments of configurations: although the first dictionaries have priority, the comments of the result are those of the last argument that counts. -/
theorem C194_comments_violated (o : MergeOpts) (h : Heap) (dd : List MArg) (d : MArg) (hd : d.truthy = true) (h' : Heap) (out : MOut) (cls : Option MCls)
    (hr : dictMergeArgs o h cls (dd ++ [d]) = .ok (h', out)) (hc : out.cls = .config) :
    out.initial = (if d.cls = .config then d.initial else []) ∧ out.final = if d.cls = .config then d.final else [] := by
  unfold dictMergeArgs mergeInto at hr
  dsimp only at hr
  have hl : ((dd ++ [d]).filter (·.truthy)).getLast? = some d := by
    rw [List.filter_append, List.filter_cons, if_pos hd]; simp
  rw [hl] at hr
  generalize cls.getD (mergeCls ((dd ++ [d]).filter (·.truthy))) = c at hr
  simp only at hr
  split at hr
  · cases hr
  · split at hr
    · rename_i hnd
      split at hr
      · obtain ⟨-, rfl⟩ := Prod.mk.inj (Except.ok.inj hr)
        have hc' : c = .config := hc
        rw [hc'] at hnd; cases hnd
      · cases hr
    · split at hr
      · obtain ⟨-, rfl⟩ := Prod.mk.inj (Except.ok.inj hr)
        exact ⟨rfl, rfl⟩
      · rename_i hcf
        obtain ⟨-, rfl⟩ := Prod.mk.inj (Except.ok.inj hr)
        exact absurd hc hcf

/-- **C194** (inline comments): each item of a configuration that is the result has an inline comment, which is that of the last argument that counts, if this one is a configuration (or a section of one) with a comment for the item that is not empty; the comments are empty if it is a plain dictionary. -/
theorem C194_inline (o : MergeOpts) (h : Heap) (dd : List MArg) (d : MArg) (hd : d.truthy = true) (hdn : (d.inline.map (·.1)).Nodup) (h' : Heap) (out : MOut) (cls : Option MCls)
    (hr : dictMergeArgs o h cls (dd ++ [d]) = .ok (h', out)) (hc : out.cls = .config) :
    (∀ k ∈ out.items.map (·.1), k ∈ out.inline.map (·.1)) ∧
    (∀ k c, d.cls = .section ∨ d.cls = .config → lookupK k d.inline = some (.atom (.str c)) → c ≠ "" → lookupK k out.inline = some (.atom (.str c))) ∧
    (d.cls ≠ .section → d.cls ≠ .config → ∀ k ∈ out.items.map (·.1), lookupK k out.inline = some (.atom (.str ""))) := by
  have hout : ∃ r : Heap × PD, (r.2.map (·.1)).Nodup ∧ out = mergeComments r.1 r.2 d := by
    unfold dictMergeArgs mergeInto at hr
    dsimp only at hr
    have hl : ((dd ++ [d]).filter (·.truthy)).getLast? = some d := by
      rw [List.filter_append, List.filter_cons, if_pos hd]; simp
    rw [hl] at hr
    generalize cls.getD (mergeCls ((dd ++ [d]).filter (·.truthy))) = c at hr
    simp only at hr
    split at hr
    · cases hr
    · split at hr
      · rename_i hnd
        split at hr
        · obtain ⟨-, rfl⟩ := Prod.mk.inj (Except.ok.inj hr)
          have hc' : c = .config := hc
          rw [hc'] at hnd; cases hnd
        · cases hr
      · split at hr
        · obtain ⟨-, rfl⟩ := Prod.mk.inj (Except.ok.inj hr)
          exact ⟨_, C49_nodup _ _ _, rfl⟩
        · rename_i hcf
          obtain ⟨-, rfl⟩ := Prod.mk.inj (Except.ok.inj hr)
          exact absurd hc hcf
  obtain ⟨⟨hp, items⟩, hn, rfl⟩ := hout
  have hkeys : (items.map (fun p => (p.1, PV.atom (.str "")))).map (·.1) = items.map (·.1) := by
    rw [List.map_map]; rfl
  have hlook : ∀ k ∈ items.map (·.1), lookupK k (items.map (fun p => (p.1, PV.atom (.str "")))) = some (.atom (.str "")) := by
    intro k hk
    obtain ⟨p, hp', rfl⟩ := List.mem_map.1 hk
    exact lookupK_of_mem _ _ _ (by rw [hkeys]; exact hn) (List.mem_map.2 ⟨p, hp', rfl⟩)
  have hnn : ∀ x ∈ [items.map (fun p => (p.1, PV.atom (.str ""))), d.inline], (x.map (·.1)).Nodup := by
    intro x hx
    rcases List.mem_cons.1 hx with rfl | hx
    · rw [hkeys]; exact hn
    · rw [List.mem_singleton] at hx; rw [hx]; exact hdn
  refine ⟨fun k hk => ?_, fun k c hcl hkc hne => ?_, fun h1 h2 k hk => ?_⟩
  rotate_left 2
  · show lookupK k (if d.hasInline && !d.inline.isEmpty then _ else _ : PD) = _
    have hi : d.hasInline = false := by simp [MArg.hasInline, h1, h2]
    rw [hi]
    exact hlook k hk
  · show k ∈ (if d.hasInline && !d.inline.isEmpty then _ else _ : PD).map (·.1)
    split
    · rw [C49_keys_any _ _ _ hnn]
      exact ⟨_, by simp, _, hlook k hk, fun _ => by simp⟩
    · rw [hkeys]; exact hk
  · show lookupK k (if d.hasInline && !d.inline.isEmpty then _ else _ : PD) = _
    have hne' : d.inline.isEmpty = false := by
      cases hd' : d.inline with
      | nil => rw [hd'] at hkc; cases hkc
      | cons => rfl
    have hi : d.hasInline = true := by rcases hcl with h | h <;> simp [MArg.hasInline, h]
    rw [hi, hne', if_pos (by rfl)]
    have hinl : lookupK k (items.map (fun p => (p.1, PV.atom (.str "")))) = none ∨ lookupK k (items.map (fun p => (p.1, PV.atom (.str "")))) = some (.atom (.str "")) := by
      by_cases hk : k ∈ items.map (·.1)
      · exact .inr (hlook k hk)
      · exact .inl ((lookupK_none_iff _ _).2 (by rw [hkeys]; exact hk))
    have hvals : valuesOf k [items.map (fun p => (p.1, PV.atom (.str ""))), d.inline] = [.atom (.str c)] ∨
        valuesOf k [items.map (fun p => (p.1, PV.atom (.str ""))), d.inline] = [.atom (.str ""), .atom (.str c)] := by
      unfold valuesOf
      rcases hinl with hinl | hinl
      · left; simp [hinl, hkc]
      · right; simp [hinl, hkc]
    have hce : isEmptyPV hp (.atom (.str c)) = false := by simp [isEmptyPV, hne]
    have hee : isEmptyPV hp (.atom (.str "")) = true := by simp [isEmptyPV]
    rw [C49_overwriteempty _ rfl rfl _ _ hnn]
    · dsimp only
      rcases hvals with hv | hv <;> rw [hv] <;> simp [counts, List.find?, hce, hee, PV.isNone]
    · rcases hvals with hv | hv <;> rw [hv] <;> simp [PV.plain]

/-- a case of it: a configuration with a header, merged with default values in a plain dictionary, loses its header -/
example (h : Heap) : ∃ h' out, dictMergeArgs {} h none [{ cls := .config, items := [("a", .atom (.int 1))], initial := ["# my file"] },
    { cls := .dict, items := [("b", .atom (.int 2))] }] = .ok (h', out) ∧ out.cls = .config ∧ out.initial = [] := by
  refine ⟨_, _, rfl, rfl, rfl⟩

/-- **C194 is violated** when an empty configuration is asked for: without any argument that counts, the comments are read from a variable that is not set. -/
theorem C194_empty_config_violated (o : MergeOpts) (h : Heap) (dd : List MArg) (hd : ∀ d ∈ dd, d.truthy = false) :
    dictMergeArgs o h (some .config) dd = .error .unboundLocal := by
  have hf : dd.filter (·.truthy) = [] := by
    rw [List.filter_eq_nil_iff]; intro d h; rw [hd d h]; simp
  unfold dictMergeArgs mergeInto
  rw [hf]
  rfl

/-- **C194** (which arguments are dictionaries): with the class `dict` asked for, an argument that is a list, a tuple or a number may be taken away without changing the result, wherever it stands. -/
theorem C194_others_skipped (o : MergeOpts) (h : Heap) (a b : List MArg) (x : MArg) (n : Nat) (hx : x.cls = .other n) :
    dictMergeArgs o h (some .dict) (a ++ x :: b) = dictMergeArgs o h (some .dict) (a ++ b) := by
  have hf : (a ++ x :: b).filter (fun d => d.cls.isDict) = (a ++ b).filter (fun d => d.cls.isDict) := by
    simp only [List.filter_append, List.filter_cons]
    simp [hx, MCls.isDict]
  unfold dictMergeArgs mergeInto
  simp only [merge_truthy, hf, Option.getD_some]
  simp [MCls.isDict]

/-- **C194** (which arguments are dictionaries): with the class `dict` asked for, arguments that are all dictionaries, of the class `dict`, of another one, or sections or configurations, are all merged. -/
theorem C194_dicts_merged (o : MergeOpts) (h : Heap) (dd : List MArg)
    (hd : ∀ d ∈ dd, d.cls = .dict ∨ (∃ n, d.cls = .sub n) ∨ d.cls = .section ∨ d.cls = .config) :
    ∃ out, dictMergeArgs o h (some .dict) dd = .ok ((dictMerge o h (dd.map (·.items))).1, out) ∧ out.cls = .dict ∧
      out.items = (dictMerge o h (dd.map (·.items))).2 := by
  have hf : dd.filter (fun d => d.cls.isDict) = dd := by
    rw [List.filter_eq_self]
    intro d hm
    rcases hd d hm with e | ⟨n, e⟩ | e | e <;> simp [e, MCls.isDict]
  have := C194_given o h .dict dd rfl (by simp) (by simp)
  rwa [hf] at this

example (h : Heap) (x : MArg) (hx : x.cls = .other 3) : dictMergeArgs {} h (some .dict) [{ cls := .dict, items := [("a", .atom (.int 1))] }, x, { cls := .config, items := [("b", .atom (.int 2))] }] =
    dictMergeArgs {} h (some .dict) [{ cls := .dict, items := [("a", .atom (.int 1))] }, { cls := .config, items := [("b", .atom (.int 2))] }] :=
  C194_others_skipped {} h [{ cls := .dict, items := [("a", .atom (.int 1))] }] [{ cls := .config, items := [("b", .atom (.int 2))] }] x 3 hx

end Xoa
