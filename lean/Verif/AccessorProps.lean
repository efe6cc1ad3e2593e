import Verif.Accessor
import Verif.CoordGetProps
import Verif.CfFormatMoreProps

/-!
# Accessors: access by name, sub-accessors (C139), specifications in use (C140), attributes (C141)
-/

namespace Xoa

/-! ## C139 -/

/-- **C139 (datasets).** `ds.cfd.<name>` and `ds.cfd[name]` give what is found first, in the data variables and then in the coordinates, or `None` with one warning.
(`rv` and `rc` are what is found in each category, see C65 and C43.) -/
theorem C139_dataset (v : CfView) (dsa : DSA) (hd : dsa.dataVars.isSome) (name : Str) (rv rc : Option (DObj × Str))
    (hv : FoundIn v.sg v.two dsa true .any name rv) (hc : FoundIn v.sg v.two dsa false .any name rc) :
    (∀ x, rv.or rc = some x → accGetattr .dataset v dsa name = .ok (.array x.1, 0)) ∧
    (rv.or rc = none → accGetattr .dataset v dsa name = .ok (.none, 1)) := by
  have h := C65_search v.sg v.two dsa .any name .warn rv rc hv hc
  simp only [hd, if_true] at h
  obtain ⟨h1, _, h3, _⟩ := h
  constructor
  · intro x hx
    show ((specsSearch v.sg v.two dsa .any name .warn).map fun r => (AccVal.ofFound r.1, r.2)).mapError AccAErr.matching = _
    rw [h1 x hx]
    rfl
  · intro hx
    show ((specsSearch v.sg v.two dsa .any name .warn).map fun r => (AccVal.ofFound r.1, r.2)).mapError AccAErr.matching = _
    rw [h3 hx trivial]
    rfl

/-- **C139 (sub-accessors and arrays).** `obj.cfd.coords.<name>` gives the coordinate found with this CF name, and `obj.cfd.data_vars.<name>` the data variable;
nothing is found when the name is not in the category. -/
theorem C139_category (k : AccKind) (c : Bool) (hk : (k = .coords ∧ c = false) ∨ (k = .array ∧ c = false) ∨ (k = .dataVars ∧ c = true)) (v : CfView) (dsa : DSA)
    (name : Str) :
    (lookupS name (v.two.cat c) = none → accGetattr k v dsa name = .ok (.none, 0)) ∧
    (∀ spec found, lookupS name (v.two.cat c) = some spec → searchNameAll v.sg .any (dsa.objs c) name spec = .ok found →
      ∃ w, accGetattr k v dsa name = .ok (AccVal.ofFound found.head?, w) ∧ (w = 0 ↔ found.length = 1)) := by
  have e : accGetattr k v dsa name =
      ((searchName v.sg (v.two.cat c) .any (dsa.objs c) name .warn).map fun r => (AccVal.ofFound r.1, r.2)).mapError .matching := by
    unfold accGetattr accGet
    rcases hk with ⟨rfl, rfl⟩ | ⟨rfl, rfl⟩ | ⟨rfl, rfl⟩ <;> rfl
  constructor
  · intro h
    rw [e]
    unfold searchName
    rw [h]
    rfl
  · intro spec found hs hf
    obtain ⟨_, ⟨w, h1, h2⟩, _⟩ := C43_single_search v.sg (v.two.cat c) .any (dsa.objs c) name spec hs found hf
    exact ⟨w, by rw [e, h1]; rfl, h2⟩

/-- **C139 (arrays).** On an array, the completed attributes come first, then the coordinates. -/
theorem C139_array (a : AccArr) (v : CfView) (l : Attrs) (hl : a.cfAttrs v = .ok l) (name : Str) :
    (∀ x, lookupS name l = some x → a.getattr v name = .ok (.attr x, 0)) ∧
    (lookupS name l = none → a.getattr v name = accGetattr .array v a.dsa name) := by
  unfold AccArr.getattr
  rw [hl]
  constructor
  · intro x hx
    show (match lookupS name l with
      | some x => Except.ok (AccVal.attr x, 0)
      | none => accGetattr .array v a.dsa name) = _
    rw [hx]
  · intro hx
    show (match lookupS name l with
      | some x => Except.ok (AccVal.attr x, 0)
      | none => accGetattr .array v a.dsa name) = _
    rw [hx]

theorem subAccessor_none (ga : Str → Except AccAErr (AccVal × Nat)) (attr : Str) (n : Nat) (h : ga attr = .ok (.none, n)) :
    subAccessor ga attr = .ok (.none, n + n) := by
  unfold subAccessor
  rw [h]
  rfl

theorem dataset_unknown (v : CfView) (dsa : DSA) (name : Str) (hv : lookupS name v.two.dataVars = none) (hc : lookupS name v.two.coords = none) :
    accGetattr .dataset v dsa name = .ok (.none, 1) := by
  have h1 : FoundIn v.sg v.two dsa true .any name none := Or.inl ⟨hv, rfl⟩
  have h2 : FoundIn v.sg v.two dsa false .any name none := Or.inl ⟨hc, rfl⟩
  have h := C65_search v.sg v.two dsa .any name .warn none none h1 h2
  have e : (if dsa.dataVars.isSome then (none : Option (DObj × Str)).or none else (none : Option (DObj × Str)).or none) = none := by
    split <;> rfl
  have h3 := h.2.2.1 e rfl
  show ((specsSearch v.sg v.two dsa .any name .warn).map fun r => (AccVal.ofFound r.1, r.2)).mapError AccAErr.matching = _
  rw [h3]
  rfl

/-- **C139, what the code does instead (datasets).** The sub-accessors `cf` and `decode_sigma` of the main accessor of any dataset are always `None`: `hasattr(self, "_cf")` is true, because
any unknown attribute is searched for as a CF name, so that the sub-accessor is never made. Two warnings are emitted. -/
theorem C139_dataset_sub_violated (v : CfView) (dsa : DSA) (attr : Str) (hv : lookupS attr v.two.dataVars = none) (hc : lookupS attr v.two.coords = none) :
    subAccessor (accGetattr .dataset v dsa) attr = .ok (.none, 2) :=
  subAccessor_none _ _ _ (dataset_unknown v dsa attr hv hc)

/-- **C139, what the code does instead (arrays).** The sub-accessor `cf` of the main accessor is `None` for any array whose completed attributes can be computed
and do not contain `_cf`. -/
theorem C139_array_sub_violated (v : CfView) (a : AccArr) (l : Attrs) (hl : a.cfAttrs v = .ok l) (attr : Str) (hn : lookupS attr l = none)
    (hc : lookupS attr v.two.coords = none) : subAccessor (a.getattr v) attr = .ok (.none, 0) := by
  apply subAccessor_none _ _ 0
  rw [(C139_array a v l hl attr).2 hn]
  exact (C139_category .array false (.inr (.inl ⟨rfl, rfl⟩)) v a.dsa attr).1 hc

/-! ## C140 -/

/-- an operation that uses the accessor -/
def AccOp.touches {S : Type} : AccOp S → Bool
  | .setCurrent _ => false
  | _ => true

/-- an operation that uses a sub-accessor -/
def AccOp.touchesSub {S : Type} (vars : Bool) : AccOp S → Bool
  | .readSub v => v == vars
  | .setSub v _ => v == vars
  | _ => false

def AccOp.isSetAcc {S : Type} : AccOp S → Bool
  | .setAcc _ => true
  | _ => false

def AccOp.isSetSub {S : Type} (vars : Bool) : AccOp S → Bool
  | .setSub v _ => v == vars
  | _ => false

/-- the new object, on which no accessor has been used -/
def AccWorld.fresh {S : Type} (s : S) : AccWorld S := ⟨s, none, none, none⟩

theorem putSub_acc {S : Type} (w : AccWorld S) (v : Bool) (s : S) : (w.putSub v s).acc = w.acc := by
  unfold AccWorld.putSub
  split <;> rfl

theorem putSub_current {S : Type} (w : AccWorld S) (v : Bool) (s : S) : (w.putSub v s).current = w.current := by
  unfold AccWorld.putSub
  split <;> rfl

theorem putSub_sub {S : Type} (w : AccWorld S) (v u : Bool) (s : S) : (w.putSub v s).sub u = if u = v then some s else w.sub u := by
  cases v <;> cases u <;> rfl

theorem touch_sub {S : Type} (w : AccWorld S) (u : Bool) : w.touch.sub u = w.sub u := by cases u <;> rfl

theorem touch_acc {S : Type} (w : AccWorld S) : w.touch.acc = some w.specs := rfl

/-- the specifications of an accessor that exists change only with its own `set_cf_specs` -/
theorem step_acc {S : Type} (w : AccWorld S) (s : S) (h : w.acc = some s) (op : AccOp S) (ho : op.isSetAcc = false) : (w.step op).acc = some s := by
  have hs : w.specs = s := by unfold AccWorld.specs; rw [h]; rfl
  cases op with
  | setCurrent t => exact h
  | read => show w.touch.acc = _; rw [touch_acc, hs]
  | setAcc t => exact absurd ho (by simp [AccOp.isSetAcc])
  | readSub v => show (w.touch.putSub v _).acc = _; rw [putSub_acc, touch_acc, hs]
  | setSub v t => show (w.touch.putSub v _).acc = _; rw [putSub_acc, touch_acc, hs]

theorem run_acc {S : Type} (s : S) : ∀ (h : List (AccOp S)) (w : AccWorld S), w.acc = some s → (∀ op ∈ h, op.isSetAcc = false) → (w.run h).acc = some s := by
  intro h
  induction h with
  | nil => intro w hw _; exact hw
  | cons op h ih =>
    intro w hw ho
    exact ih (w.step op) (step_acc w s hw op (ho op (List.mem_cons_self ..))) (fun o hm => ho o (List.mem_cons_of_mem _ hm))

theorem used_of_acc {S : Type} (w : AccWorld S) (s : S) (h : w.acc = some s) : w.used = s := by
  unfold AccWorld.used AccWorld.specs
  rw [h]
  rfl

theorem run_append {S : Type} (w : AccWorld S) (h k : List (AccOp S)) : w.run (h ++ k) = (w.run h).run k := List.foldl_append

/-- **C140 (given specifications).** After `set_cf_specs` on the accessor, its searches use these specifications until its next `set_cf_specs`, in any history. -/
theorem C140_given {S : Type} (w : AccWorld S) (before after : List (AccOp S)) (s : S) (ha : ∀ op ∈ after, op.isSetAcc = false) :
    (w.run (before ++ .setAcc s :: after)).used = s := by
  rw [run_append]
  exact used_of_acc _ s (run_acc s after _ rfl ha)

/-- the last current specifications of a history without access -/
theorem run_untouched {S : Type} : ∀ (h : List (AccOp S)) (w : AccWorld S), w.acc = none → (∀ op ∈ h, op.touches = false) →
    (w.run h).acc = none ∧ (w.run h).sub true = w.sub true ∧ (w.run h).sub false = w.sub false := by
  intro h
  induction h with
  | nil => intro w hw _; exact ⟨hw, rfl, rfl⟩
  | cons op h ih =>
    intro w hw ho
    have h1 := ho op (List.mem_cons_self ..)
    cases op with
    | setCurrent t => exact ih _ hw (fun o hm => ho o (List.mem_cons_of_mem _ hm))
    | read => exact absurd h1 (by simp [AccOp.touches])
    | setAcc t => exact absurd h1 (by simp [AccOp.touches])
    | readSub v => exact absurd h1 (by simp [AccOp.touches])
    | setSub v t => exact absurd h1 (by simp [AccOp.touches])

theorem step_touch_acc {S : Type} (w : AccWorld S) (op : AccOp S) (ht : op.touches = true) (hn : op.isSetAcc = false) : (w.step op).acc = some w.specs := by
  cases op with
  | setCurrent t => exact absurd ht (by simp [AccOp.touches])
  | read => rfl
  | setAcc t => exact absurd hn (by simp [AccOp.isSetAcc])
  | readSub v => show (w.touch.putSub v _).acc = _; rw [putSub_acc, touch_acc]
  | setSub v t => show (w.touch.putSub v _).acc = _; rw [putSub_acc, touch_acc]

/-- **C140 (current specifications).** The first access uses the specifications that are current at that time. -/
theorem C140_first_partial {S : Type} (s0 : S) (before : List (AccOp S)) (hb : ∀ op ∈ before, op.touches = false) :
    ((AccWorld.fresh s0).run before).used = ((AccWorld.fresh s0).run before).current := by
  have h := (run_untouched before (AccWorld.fresh s0) rfl hb).1
  unfold AccWorld.used AccWorld.specs
  rw [h]
  rfl

/-- **C140, what the code does instead (current specifications).** Once the accessor of an object has been used, it keeps for ever the specifications that were current then: changing the
current specifications (`xoa.cf.set_cf_specs`, also as a context) has no effect on it. -/
theorem C140_frozen_violated {S : Type} (s0 : S) (before after : List (AccOp S)) (op : AccOp S) (hb : ∀ o ∈ before, o.touches = false) (ht : op.touches = true)
    (hn : op.isSetAcc = false) (ha : ∀ o ∈ after, o.isSetAcc = false) :
    ((AccWorld.fresh s0).run (before ++ op :: after)).used = ((AccWorld.fresh s0).run before).current := by
  rw [run_append]
  have h1 := step_touch_acc ((AccWorld.fresh s0).run before) op ht hn
  rw [← C140_first_partial s0 before hb]
  exact used_of_acc _ _ (run_acc _ after _ h1 ha)

theorem step_sub {S : Type} (w : AccWorld S) (u : Bool) (s : S) (h : w.sub u = some s) (op : AccOp S) (ho : op.isSetSub u = false) : (w.step op).sub u = some s := by
  cases op with
  | setCurrent t => cases u <;> exact h
  | read => show w.touch.sub u = _; rw [touch_sub, h]
  | setAcc t => cases u <;> exact h
  | readSub v =>
    show (w.touch.putSub v _).sub u = _
    rw [putSub_sub, touch_sub]
    by_cases e : u = v
    · subst e; rw [if_pos rfl, h]; rfl
    · rw [if_neg e, h]
  | setSub v t =>
    show (w.touch.putSub v _).sub u = _
    rw [putSub_sub, touch_sub]
    have e : u ≠ v := by
      intro e
      subst e
      simp [AccOp.isSetSub] at ho
    rw [if_neg e, h]

theorem run_sub {S : Type} (u : Bool) (s : S) : ∀ (h : List (AccOp S)) (w : AccWorld S), w.sub u = some s → (∀ op ∈ h, op.isSetSub u = false) → (w.run h).sub u = some s := by
  intro h
  induction h with
  | nil => intro w hw _; exact hw
  | cons op h ih =>
    intro w hw ho
    exact ih (w.step op) (step_sub w u s hw op (ho op (List.mem_cons_self ..))) (fun o hm => ho o (List.mem_cons_of_mem _ hm))

theorem step_sub_none {S : Type} (w : AccWorld S) (u : Bool) (h : w.sub u = none) (op : AccOp S) (ho : op.touchesSub u = false) : (w.step op).sub u = none := by
  cases op with
  | setCurrent t => cases u <;> exact h
  | read => show w.touch.sub u = _; rw [touch_sub, h]
  | setAcc t => cases u <;> exact h
  | readSub v =>
    show (w.touch.putSub v _).sub u = _
    rw [putSub_sub, touch_sub]
    have e : u ≠ v := by intro e; subst e; simp [AccOp.touchesSub] at ho
    rw [if_neg e, h]
  | setSub v t =>
    show (w.touch.putSub v _).sub u = _
    rw [putSub_sub, touch_sub]
    have e : u ≠ v := by intro e; subst e; simp [AccOp.touchesSub] at ho
    rw [if_neg e, h]

theorem run_sub_none {S : Type} (u : Bool) : ∀ (h : List (AccOp S)) (w : AccWorld S), w.sub u = none → (∀ op ∈ h, op.touchesSub u = false) → (w.run h).sub u = none := by
  intro h
  induction h with
  | nil => intro w hw _; exact hw
  | cons op h ih =>
    intro w hw ho
    exact ih (w.step op) (step_sub_none w u hw op (ho op (List.mem_cons_self ..))) (fun o hm => ho o (List.mem_cons_of_mem _ hm))

theorem fresh_sub {S : Type} (s : S) (u : Bool) : (AccWorld.fresh s).sub u = none := by cases u <;> rfl

theorem usedSub_of_sub {S : Type} (w : AccWorld S) (u : Bool) (s : S) (h : w.sub u = some s) : w.usedSub u = s := by
  unfold AccWorld.usedSub
  rw [h]
  rfl

/-- **C140 (sub-accessors).** Until a sub-accessor has been used, it follows the accessor: its first use is with the specifications of the accessor at that time. -/
theorem C140_sub_first_partial {S : Type} (s0 : S) (h : List (AccOp S)) (u : Bool) (hu : ∀ op ∈ h, op.touchesSub u = false) :
    ((AccWorld.fresh s0).run h).usedSub u = ((AccWorld.fresh s0).run h).used := by
  unfold AccWorld.usedSub
  rw [run_sub_none u h _ (fresh_sub s0 u) hu]
  rfl

/-- **C140 (sub-accessors).** A sub-accessor uses the specifications last given to it. -/
theorem C140_sub_given {S : Type} (w : AccWorld S) (before after : List (AccOp S)) (u : Bool) (s : S) (ha : ∀ op ∈ after, op.isSetSub u = false) :
    (w.run (before ++ .setSub u s :: after)).usedSub u = s := by
  rw [run_append]
  apply usedSub_of_sub
  apply run_sub u s after _ _ ha
  show ((w.run before).touch.putSub u s).sub u = some s
  rw [putSub_sub, if_pos rfl]

/-- **C140, what the code does instead (sub-accessors).** Once read, `obj.cfd.coords` and `obj.cfd.data_vars` keep the specifications that the accessor had at that time, also when
other specifications are given to the accessor with `obj.cfd.set_cf_specs`. -/
theorem C140_sub_stale_violated {S : Type} (s0 : S) (before after : List (AccOp S)) (u : Bool) (hb : ∀ op ∈ before, op.touchesSub u = false)
    (ha : ∀ op ∈ after, op.isSetSub u = false) :
    ((AccWorld.fresh s0).run (before ++ .readSub u :: after)).usedSub u = ((AccWorld.fresh s0).run before).used := by
  rw [run_append]
  apply usedSub_of_sub
  apply run_sub u _ after _ _ ha
  show (((AccWorld.fresh s0).run before).touch.putSub u ((((AccWorld.fresh s0).run before).sub u).getD ((AccWorld.fresh s0).run before).specs)).sub u = _
  rw [putSub_sub, if_pos rfl, run_sub_none u before _ (fresh_sub s0 u) hb]
  rfl

/-- specifications 1 are replaced by 2 on the accessor after `obj.cfd.coords` was read -/
example : ((AccWorld.fresh 0).run [.setCurrent 1, .readSub false, .setAcc 2, .setCurrent 3]).used = 2 ∧
    ((AccWorld.fresh 0).run [.setCurrent 1, .readSub false, .setAcc 2, .setCurrent 3]).usedSub false = 1 ∧
    ((AccWorld.fresh 0).run [.setCurrent 1, .readSub false, .setAcc 2, .setCurrent 3]).usedSub true = 2 := by decide

/-! ## C141 -/

theorem cfAttrs_matched {a : AccArr} {v : CfView} {c : Bool} {n : Str} (hm : specsMatch v.sg v.two a.isCoord .any (dobjOf a.name a.attrs) = .ok (some (c, n)))
    {l : Attrs} (h : a.cfAttrs v = .ok l) : a.completed v c n = some l := by
  unfold AccArr.cfAttrs AccArr.cfName at h
  rw [hm] at h
  have h' : (match a.completed v c n with
      | some l => Except.ok l
      | none => .error AccAErr.attrs) = .ok l := h
  cases hc : a.completed v c n with
  | none => rw [hc] at h'; cases h'
  | some l' => rw [hc] at h'; injection h' with h'; rw [h']

theorem completed_inv {a : AccArr} {v : CfView} {c : Bool} {n : Str} {l : Attrs} (h : a.completed v c n = some l) :
    ∃ spec cf, lookupS n (v.two.cat c) = some spec ∧ (getAttrs v.sg spec none .none .keep true true []).1 = .ok cf ∧
      patchAttrs v.sg a.attrs cf .keep true false = some l := by
  unfold AccArr.completed at h
  cases hs : lookupS n (v.two.cat c) with
  | none => rw [hs] at h; cases h
  | some spec =>
    rw [hs] at h
    cases hg : (getAttrs v.sg spec none .none .keep true true []).1 with
    | error e => simp only [Option.bind_some, hg, Except.toOption, Option.bind_none, reduceCtorEq] at h
    | ok cf =>
      simp only [Option.bind_some, hg, Except.toOption] at h
      exact ⟨spec, cf, rfl, hg, h⟩

theorem getAttrs_nodup {sg : SG} {spec : CfSpec} {cf : Attrs} (hs : (spec.attrs.map (·.1)).Nodup)
    (h : (getAttrs sg spec none .none .keep true true []).1 = .ok cf) : (cf.map (·.1)).Nodup := by
  have h' : formatAttrs sg .keep true (specAttrs true spec.attrs) = .ok cf := by
    have : updateS (specAttrs true spec.attrs) [] = specAttrs true spec.attrs := rfl
    rw [← this]
    exact h
  rw [formatAttrs_keys _ _ _ _ _ h']
  exact (specAttrs_keys true spec.attrs).nodup hs

/-- the array is recognised as this CF name with these specifications -/
def AccArr.Is (a : AccArr) (v : CfView) (spec : CfSpec) : Prop :=
  ∃ c n, specsMatch v.sg v.two a.isCoord .any (dobjOf a.name a.attrs) = .ok (some (c, n)) ∧ lookupS n (v.two.cat c) = some spec

theorem cfAttrs_inv {a : AccArr} {v : CfView} {spec : CfSpec} (hm : a.Is v spec) {l : Attrs} (h : a.cfAttrs v = .ok l) :
    ∃ cf, (getAttrs v.sg spec none .none .keep true true []).1 = .ok cf ∧ patchAttrs v.sg a.attrs cf .keep true false = some l := by
  obtain ⟨c, n, hm, hs⟩ := hm
  obtain ⟨spec', cf, h1, h2, h3⟩ := completed_inv (cfAttrs_matched hm h)
  rw [hs] at h1
  injection h1 with h1
  subst h1
  exact ⟨cf, h2, h3⟩

/-- **C141 (own attributes).** The attributes of a recognised array are all there through its accessor, with their values; the location of the standard and long names, if any, is written in
the standard way. -/
theorem C141_own_partial (a : AccArr) (v : CfView) (spec : CfSpec) (hm : a.Is v spec) (hs : (spec.attrs.map (·.1)).Nodup) (l : Attrs) (h : a.cfAttrs v = .ok l)
    (k : Str) (x : AttrVal) (hk : lookupS k a.attrs = some x) :
    ((k ≠ "standard_name".toList ∧ k ≠ "long_name".toList) → lookupS k l = some x) ∧
    (∀ s, x = .str s → k = "standard_name".toList → ∃ s', formatAttr v.sg .standardName s .keep true = .ok s' ∧ lookupS k l = some (.str s')) ∧
    (∀ s, x = .str s → k = "long_name".toList → ∃ s', formatAttr v.sg .longName s .keep true = .ok s' ∧ lookupS k l = some (.str s')) := by
  obtain ⟨cf, h1, h2⟩ := cfAttrs_inv hm h
  exact C42_existing_kept v.sg a.attrs cf l .keep true false (getAttrs_nodup hs h1) h2 k x hk (Or.inl rfl)

/-- **C141 (completed).** The attributes that a recognised array does not have are those of its specifications: the first value, formatted for the standard and the long names. -/
theorem C141_completed_partial (a : AccArr) (v : CfView) (spec : CfSpec) (hm : a.Is v spec) (hs : (spec.attrs.map (·.1)).Nodup) (l : Attrs) (h : a.cfAttrs v = .ok l)
    (k : Str) (r : Refs) (x : Str) (hk : lookupS k a.attrs = none) (hr : lookupS k spec.attrs = some r) (hx : firstOf r = some x) :
    (sgAttrOf k = none → lookupS k l = some (.str x)) ∧
    (∀ at_, sgAttrOf k = some at_ → at_ ≠ .name → ∀ m, r = .list (x :: m) → ∃ y s, formatAttr v.sg at_ x .keep true = .ok y ∧ formatAttr v.sg at_ y .keep true = .ok s ∧
      lookupS k l = some (.str s)) := by
  obtain ⟨cf, h1, h2⟩ := cfAttrs_inv hm h
  obtain ⟨_, c2, c3, _⟩ := C104_values v.sg spec none .none .keep true true [] cf hs (by simp) h1 k
  constructor
  · intro hn
    obtain ⟨v', e1, e2⟩ := c2 r x rfl hr hx (Or.inr hn)
    have e3 : v' = .str x := by
      unfold formatItem at e1
      rw [hn] at e1
      injection e1 with e1
      exact e1.symm
    exact (e3 ▸ (patchAttrs_missing v.sg a.attrs cf l .keep true false (getAttrs_nodup hs h1) h2 k v' hk e2).1 hn)
  · intro at_ ha hne
    have hkk : k = "standard_name".toList ∨ k = "long_name".toList := by
      unfold sgAttrOf at ha
      split at ha
      · injection ha with ha; exact absurd ha.symm hne
      · split at ha
        · next e => exact Or.inl e
        · split at ha
          · next e => exact Or.inr e
          · cases ha
    intro m hm'
    subst hm'
    obtain ⟨v', e1, e2⟩ := c3 x m rfl hr rfl hkk
    obtain ⟨y, m', hy, hv'⟩ : ∃ y m', formatAttr v.sg at_ x .keep true = .ok y ∧ v' = .list (y :: m') := by
      have e1' : ((x :: m).mapM (fun s => formatAttr v.sg at_ s .keep true)).map AttrVal.list = .ok v' := by
        unfold formatItem at e1
        rw [ha] at e1
        cases at_ with
        | name => exact absurd rfl hne
        | standardName => exact e1
        | longName => exact e1
      rw [List.mapM_cons] at e1'
      cases hf : formatAttr v.sg at_ x .keep true with
      | error e => rw [hf] at e1'; cases e1'
      | ok y =>
        rw [hf] at e1'
        cases hg : m.mapM (fun s => formatAttr v.sg at_ s .keep true) with
        | error e => rw [hg] at e1'; cases e1'
        | ok m' =>
          rw [hg] at e1'
          injection e1' with e1'
          exact ⟨y, m', rfl, e1'.symm⟩
    obtain ⟨s, hs1, hs2⟩ := (patchAttrs_missing v.sg a.attrs cf l .keep true false (getAttrs_nodup hs h1) h2 k v' hk e2).2 at_ y ha (Or.inr ⟨m', hv'⟩)
    exact ⟨y, s, hy, hs1, hs2⟩

/-- **C141, what the code does instead.** An array that is not recognised has no attribute at all through its accessor, whatever its attributes are; they are searched for as coordinates. -/
theorem C141_unknown_violated (a : AccArr) (v : CfView) (hm : specsMatch v.sg v.two a.isCoord .any (dobjOf a.name a.attrs) = .ok none) (k : Str) :
    a.cfAttrs v = .ok [] ∧ a.getattr v k = accGetattr .array v a.dsa k := by
  have h : a.cfAttrs v = .ok [] := by
    unfold AccArr.cfAttrs AccArr.cfName
    rw [hm]
    rfl
  exact ⟨h, (C139_array a v [] h k).2 rfl⟩

/-- specifications with attributes, an array and a view for the examples -/
def exAccView : CfView := ⟨sgTUV, ⟨[("temp".toList, ⟨["sst".toList], [("standard_name".toList, .list ["sea_water_temperature".toList]), ("units".toList, .list ["degC".toList, "K".toList])],
  "sn".toList⟩)], [("lon".toList, ⟨["nav_lon".toList], [], "n".toList⟩)]⟩⟩

/-- an array named `sst` with the attribute `units` -/
def exAccArr (name : String) : AccArr := ⟨some name.toList, [("units".toList, .str "K".toList)], false, [⟨some "nav_lon".toList, fun _ => none⟩]⟩

/-- a recognised array is completed; an unknown one looses its attribute -/
example : ((exAccArr "sst").cfAttrs exAccView).toOption = some [("units".toList, .str "K".toList), ("standard_name".toList, .str "sea_water_temperature".toList)] ∧
    ((exAccArr "foo").cfAttrs exAccView).toOption = some [] := by
  constructor <;> decide +kernel

/-- the hypotheses of C141 are met -/
example : (exAccArr "sst").Is exAccView ⟨["sst".toList], [("standard_name".toList, .list ["sea_water_temperature".toList]), ("units".toList, .list ["degC".toList, "K".toList])], "sn".toList⟩ := by
  exact ⟨true, "temp".toList, by decide +kernel, by rfl⟩

/-- the coordinate, the attribute and the missing sub-accessor of the array -/
example : ((exAccArr "sst").getattr exAccView "lon".toList).toOption.map (fun r => (r.1 matches .array _, r.2)) = some (true, 0) ∧
    ((exAccArr "sst").getattr exAccView "units".toList).toOption.map (fun r => (r.1 matches .attr (.str ['K']), r.2)) = some (true, 0) ∧
    (subAccessor ((exAccArr "sst").getattr exAccView) "_cf".toList).toOption.map (fun r => (r.1 matches .none, r.2)) = some (true, 0) := by
  refine ⟨?_, ?_, ?_⟩ <;> decide +kernel

/-- a dataset: its temperature is found, and its main accessor has no `cf` -/
example : (accGetattr .dataset exAccView (exDs ["nav_lon"]) "temp".toList).toOption.map (fun r => (r.1 matches .array _, r.2)) = some (true, 0) ∧
    (subAccessor (accGetattr .dataset exAccView (exDs ["nav_lon"])) "_cf".toList).toOption.map (fun r => (r.1 matches .none, r.2)) = some (true, 2) := by
  constructor <;> decide +kernel

end Xoa
