import Verif.CfDims
import Verif.CfInheritLemmas

/-! # C47: dimensions by type; C64: the coordinate of a dimension -/

namespace Xoa

variable (sg : SG) (types : CfDims) (da : DArr)

/-- **the type of a dimension**, as `get_dim_type(dim, da)` gives it -/
def HasType (dim t : Str) : Prop := t ≠ [] ∧ getDimType sg types dim (some da) = .ok (some t)

theorem HasType.unique {sg : SG} {types : CfDims} {da : DArr} {d t t' : Str} (h : HasType sg types da d t) (h' : HasType sg types da d t') : t = t' := by
  have := h.2.symm.trans h'.2
  injection this with this; injection this

/-- the axis of an array, in lower case: its attribute `axis` when there is one, otherwise the axis of the CF coordinate that it matches -/
inductive AxisOf (a : AxArr) : Option Str → Prop
  | attr (x : Str) (h : a.axisAttr = some x) : AxisOf a (some (lower x))
  | cf (x : Str) (h : a.axisAttr = none) (h' : a.cfAxis = some x) : AxisOf a (some (lower x))
  | no (h : a.axisAttr = none) (h' : a.cfAxis = none) : AxisOf a none

theorem axisOf_iff (a : AxArr) (r : Option Str) : getAxisL a = r ↔ AxisOf a r := by
  obtain ⟨dims, at', cf⟩ := a
  constructor
  · rintro rfl
    cases at' with
    | some x => exact .attr x rfl
    | none => cases cf with
      | some x => exact .cf x rfl rfl
      | none => exact .no rfl rfl
  · intro h
    cases h with
    | attr x h => dsimp only at h; subst h; rfl
    | cf x h h' => dsimp only at h h'; subst h h'; rfl
    | no h h' => dsimp only at h h'; subst h h'; rfl

/-- **the type of a dimension** whose name without location is `root`: the first type with a known name that is `root` in lower
case; otherwise the axis of the coordinate named `root`; otherwise, when there is no such coordinate, the axis of the array itself -/
inductive DimTypeIs (root : Str) : Option Str → Prop
  | known (pre post : CfDims) (t : Str) (names : List Str) (h : types = pre ++ (t, names) :: post) (h1 : lower root ∈ names)
      (h2 : ∀ p ∈ pre, lower root ∉ p.2) : DimTypeIs root (some t)
  | coord (c : AxArr) (t : Option Str) (h : ∀ p ∈ types, lower root ∉ p.2) (h1 : root ∈ da.self.dims) (h2 : lookupS root da.coords = some c)
      (h3 : AxisOf c t) : DimTypeIs root t
  | self (t : Option Str) (h : ∀ p ∈ types, lower root ∉ p.2) (h1 : root ∈ da.self.dims) (h2 : lookupS root da.coords = none)
      (h3 : AxisOf da.self t) (h4 : t ≠ some []) : DimTypeIs root t
  | blank (h : ∀ p ∈ types, lower root ∉ p.2) (h1 : root ∈ da.self.dims) (h2 : lookupS root da.coords = none)
      (h3 : AxisOf da.self (some [])) : DimTypeIs root none

theorem find_first {α : Type} (p : α → Bool) (l : List α) (x : α) :
    l.find? p = some x ↔ ∃ pre post, l = pre ++ x :: post ∧ p x = true ∧ ∀ y ∈ pre, p y = false := by
  rw [List.find?_eq_some_iff_append]
  constructor
  · rintro ⟨h1, pre, post, h2, h3⟩
    exact ⟨pre, post, h2, h1, fun y hy => by simpa using h3 y hy⟩
  · rintro ⟨pre, post, h2, h1, h3⟩
    exact ⟨h1, pre, post, h2, fun y hy => by simpa using h3 y hy⟩

/-- **C47 (`get_dim_type`).** The type of a dimension. -/
theorem C47_get_dim_type (dim root : Str) (loc : Option Str) (hp : parseAttr sg .name dim = (root, loc)) (r : Option Str) :
    getDimType sg types dim (some da) = .ok r ↔ DimTypeIs types da root r := by
  unfold getDimType
  simp only [hp]
  cases hf : types.find? (fun p => decide (lower root ∈ p.2)) with
  | some p =>
    obtain ⟨t, names⟩ := p
    obtain ⟨pre, post, h1, h2, h3⟩ := (find_first _ _ _).1 hf
    have hk : lower root ∈ names := by simpa using h2
    have hm : (t, names) ∈ types := by rw [h1]; simp
    dsimp only
    constructor
    · intro h
      cases h
      exact .known pre post t names h1 hk (fun q hq => by simpa using h3 q hq)
    · intro h
      cases h with
      | known pre' post' t' names' g1 g2 g3 =>
        have := (find_first (fun p : Str × List Str => decide (lower root ∈ p.2)) types (t', names')).2
          ⟨pre', post', g1, by simpa using g2, fun y hy => by simpa using g3 y hy⟩
        rw [hf] at this
        injection this with this
        injection this with this _
        rw [this]
      | coord c _ g1 => exact absurd hk (g1 _ hm)
      | self _ g1 => exact absurd hk (g1 _ hm)
      | blank g1 => exact absurd hk (g1 _ hm)
  | none =>
    have hno : ∀ p ∈ types, lower root ∉ p.2 := by
      intro p hp'
      have := List.find?_eq_none.1 hf p hp'
      simpa using this
    dsimp only
    by_cases hd : root ∈ da.self.dims
    · rw [if_neg (by simpa using hd)]
      cases hc : lookupS root da.coords with
      | some c =>
        dsimp only
        constructor
        · intro h
          injection h with h
          exact .coord c r hno hd hc ((axisOf_iff c r).1 h)
        · intro h
          cases h with
          | known pre' post' t' names' g1 g2 g3 => exact absurd g2 (hno (t', names') (by rw [g1]; simp))
          | coord c' _ _ _ g2 g3 =>
            rw [hc] at g2; injection g2 with g2; subst g2
            rw [(axisOf_iff _ _).2 g3]
          | self _ _ _ g2 => rw [hc] at g2; cases g2
          | blank _ _ g2 => rw [hc] at g2; cases g2
      | none =>
        dsimp only
        constructor
        · intro h
          cases ha : getAxisL da.self with
          | none => rw [ha] at h; cases h; exact .self none hno hd hc ((axisOf_iff _ _).1 ha) (by simp)
          | some a =>
            rw [ha] at h
            injection h with h
            by_cases h0 : a = []
            · subst h0
              rw [if_pos rfl] at h
              subst h
              exact .blank hno hd hc ((axisOf_iff _ _).1 ha)
            · rw [if_neg h0] at h
              subst h
              exact .self _ hno hd hc ((axisOf_iff _ _).1 ha) (by simpa using h0)
        · intro h
          cases h with
          | known pre' post' t' names' g1 g2 g3 => exact absurd g2 (hno (t', names') (by rw [g1]; simp))
          | coord c' _ _ _ g2 g3 => rw [hc] at g2; cases g2
          | self _ _ _ g2 g3 g4 =>
            rw [(axisOf_iff _ _).2 g3]
            cases r with
            | none => rfl
            | some a => dsimp only; rw [if_neg (by simpa using g4)]
          | blank _ _ g2 g3 => rw [(axisOf_iff _ _).2 g3]; rfl
    · rw [if_pos hd]
      constructor
      · intro h; cases h
      · intro h
        cases h with
        | known pre' post' t' names' g1 g2 g3 => exact absurd g2 (hno (t', names') (by rw [g1]; simp))
        | coord _ _ _ g => exact absurd g hd
        | self _ _ g => exact absurd g hd
        | blank _ g => exact absurd g hd

/-- **C47 (`get_dim_type`).** There is an error when the name without location is neither known nor the name of a dimension of the array:
this happens for a dimension `x_u` of the array that no type knows. -/
theorem C47_get_dim_type_error (dim root : Str) (loc : Option Str) (hp : parseAttr sg .name dim = (root, loc)) :
    getDimType sg types dim (some da) = .error .notADim ↔ (∀ p ∈ types, lower root ∉ p.2) ∧ root ∉ da.self.dims := by
  constructor
  · intro h
    by_cases hno : ∀ p ∈ types, lower root ∉ p.2
    · refine ⟨hno, fun hd => ?_⟩
      have : ∃ r, DimTypeIs types da root r := by
        cases hc : lookupS root da.coords with
        | some c => exact ⟨_, .coord c (getAxisL c) hno hd hc ((axisOf_iff _ _).1 rfl)⟩
        | none =>
          by_cases ha : getAxisL da.self = some []
          · exact ⟨_, .blank hno hd hc ((axisOf_iff _ _).1 ha)⟩
          · exact ⟨_, .self _ hno hd hc ((axisOf_iff _ _).1 rfl) ha⟩
      obtain ⟨r, hr⟩ := this
      rw [(C47_get_dim_type sg types da dim root loc hp r).2 hr] at h
      cases h
    · exfalso
      push Not at hno
      obtain ⟨p, h1, h2⟩ := hno
      unfold getDimType at h
      simp only [hp] at h
      cases hf : types.find? (fun p => decide (lower root ∈ p.2)) with
      | some q => rw [hf] at h; cases h
      | none => exact absurd h2 (by simpa using List.find?_eq_none.1 hf p h1)
  · rintro ⟨h1, h2⟩
    unfold getDimType
    simp only [hp]
    have : types.find? (fun p => decide (lower root ∈ p.2)) = none := List.find?_eq_none.2 (fun p hp' => by simpa using h1 p hp')
    rw [this]
    simp only [if_pos h2]

/-- `r` is the first of the dimensions that has the type `t` and a convenient location, or nothing if there is none -/
structure FirstOfType (t : Str) (loc : Option Str) (dims : List Str) (r : Option Str) : Prop where
  found : ∀ d, r = some d → ∃ pre post, dims = pre ++ d :: post ∧ HasType sg types da d t ∧ locSkip sg loc d = false ∧
    ∀ x ∈ pre, locSkip sg loc x = true ∨ ¬ HasType sg types da x t
  notFound : r = none → ∀ x ∈ dims, locSkip sg loc x = true ∨ ¬ HasType sg types da x t

/-- what `search_dim` finds: the first dimension of this type (and location) -/
theorem searchDimLoop_spec (t : Str) (loc : Option Str) (dims : List Str) (r : Option Str)
    (h : searchDimLoop sg types da t loc dims = .ok r) : FirstOfType sg types da t loc dims r := by
  induction dims with
  | nil => simp [searchDimLoop] at h; subst h; exact ⟨by simp, by simp⟩
  | cons a ds ih =>
    unfold searchDimLoop at h
    have lift : (locSkip sg loc a = true ∨ ¬ HasType sg types da a t) → searchDimLoop sg types da t loc ds = .ok r →
        FirstOfType sg types da t loc (a :: ds) r := by
      intro ha hh
      have := ih hh
      constructor
      · intro d hd
        obtain ⟨pre, post, e, h1, h2, h3⟩ := this.found d hd
        refine ⟨a :: pre, post, by rw [e]; rfl, h1, h2, ?_⟩
        intro x hx
        rcases List.mem_cons.1 hx with rfl | hx
        · exact ha
        · exact h3 x hx
      · intro hr x hx
        rcases List.mem_cons.1 hx with rfl | hx
        · exact ha
        · exact this.notFound hr x hx
    by_cases hs : locSkip sg loc a = true
    · rw [if_pos hs] at h
      exact lift (Or.inl hs) h
    · rw [if_neg hs] at h
      cases hg : getDimType sg types a (some da) with
      | error e => rw [hg] at h; simp [Except.bind] at h
      | ok ty =>
        rw [hg] at h
        simp only [Except.bind] at h
        by_cases hc : ty = some t ∧ t ≠ []
        · rw [if_pos hc] at h
          injection h with h; subst h
          refine ⟨?_, by simp⟩
          intro d hd; injection hd with hd; subst hd
          exact ⟨[], ds, rfl, ⟨hc.2, by rw [hg, hc.1]⟩, by simpa using hs, by simp⟩
        · rw [if_neg hc] at h
          refine lift (Or.inr ?_) h
          rintro ⟨h1, h2⟩
          rw [hg] at h2; injection h2 with h2
          exact hc ⟨h2, h1⟩

/-- the dimension `d` says that it is at another location than `loc` -/
def Elsewhere (loc : Option Str) (d : Str) : Prop :=
  ∃ l root p, loc = some l ∧ parseAttr sg .name d = (root, some p) ∧ l ≠ [] ∧ p ≠ [] ∧ p ≠ l

theorem locSkip_iff (loc : Option Str) (d : Str) : locSkip sg loc d = true ↔ Elsewhere sg loc d := by
  unfold locSkip Elsewhere
  cases loc with
  | none => simp
  | some l =>
    dsimp only
    rcases hp : parseAttr sg .name d with ⟨root, p⟩
    cases p with
    | none => simp
    | some p =>
      simp only [decide_eq_true_eq]
      constructor
      · rintro ⟨h1, h2, h3⟩; exact ⟨l, root, p, rfl, rfl, h2, h1, fun h => h3 h.symm⟩
      · rintro ⟨l', root', p', h1, h2, h3, h4, h5⟩
        injection h1 with h1
        injection h2 with _ h2
        injection h2 with h2
        subst h1 h2
        exact ⟨h4, h3, fun h => h5 h.symm⟩

/-- **C47 (`search_dim`).** The dimension that is found for a type and a location is the first one with this type that is not at another
location; when nothing is found there is none. -/
theorem C47_search_dim (t : Str) (loc : Option Str) :
    (∀ d, searchDim sg types da t loc = .ok (some d) → ∃ pre post, da.self.dims = pre ++ d :: post ∧
      HasType sg types da d (lower t) ∧ ¬ Elsewhere sg loc d ∧ ∀ x ∈ pre, Elsewhere sg loc x ∨ ¬ HasType sg types da x (lower t)) ∧
    (searchDim sg types da t loc = .ok none → ∀ x ∈ da.self.dims, Elsewhere sg loc x ∨ ¬ HasType sg types da x (lower t)) := by
  constructor
  · intro d h
    obtain ⟨pre, post, e, h1, h2, h3⟩ := (searchDimLoop_spec sg types da (lower t) loc da.self.dims _ h).found d rfl
    refine ⟨pre, post, e, h1, fun h => ?_, fun x hx => (h3 x hx).imp_left (locSkip_iff sg loc x).1⟩
    rw [(locSkip_iff sg loc d).2 h] at h2
    cases h2
  · intro h x hx
    exact ((searchDimLoop_spec sg types da (lower t) loc da.self.dims _ h).notFound rfl x hx).imp_left (locSkip_iff sg loc x).1

theorem searchDim_some (t d : Str) (h : searchDim sg types da t none = .ok (some d)) :
    ∃ pre post, da.self.dims = pre ++ d :: post ∧ HasType sg types da d (lower t) ∧ ∀ x ∈ pre, ¬ HasType sg types da x (lower t) := by
  obtain ⟨pre, post, e, h1, -, h3⟩ := (searchDimLoop_spec sg types da (lower t) none da.self.dims _ h).found d rfl
  exact ⟨pre, post, e, h1, fun x hx => (h3 x hx).resolve_left (by simp [locSkip])⟩

theorem searchDim_none (t : Str) (h : searchDim sg types da t none = .ok none) :
    ∀ x ∈ da.self.dims, ¬ HasType sg types da x (lower t) := by
  intro x hx
  exact ((searchDimLoop_spec sg types da (lower t) none da.self.dims _ h).notFound rfl x hx).resolve_left (by simp [locSkip])

theorem setS_append_new {α : Type} (k : Str) (v : α) (d : List (Str × α)) (h : k ∉ d.map (·.1)) : setS k v d = d ++ [(k, v)] := by
  induction d with
  | nil => rfl
  | cons q d ih =>
    obtain ⟨a, b⟩ := q
    simp only [List.map_cons, List.mem_cons, not_or] at h
    simp only [setS, if_neg h.1, ih h.2, List.cons_append]

theorem scanTypes_spec (ts : List Str) (acc out : List (Str × Option Str)) (h : scanTypes sg types da ts acc = .ok out)
    (hn : ts.Nodup) (hd : ∀ t ∈ ts, t ∉ acc.map (·.1)) :
    ∃ rs, out = acc ++ ts.zip rs ∧ rs.length = ts.length ∧ ∀ p ∈ ts.zip rs, searchDim sg types da p.1 none = .ok p.2 := by
  induction ts generalizing acc with
  | nil => simp [scanTypes] at h; exact ⟨[], by simp [h], rfl, by simp⟩
  | cons t ts ih =>
    unfold scanTypes at h
    cases hs : searchDim sg types da t none with
    | error e => rw [hs] at h; simp [Except.bind] at h
    | ok r =>
      rw [hs] at h
      simp only [Except.bind] at h
      rw [setS_append_new _ _ _ (hd t (by simp))] at h
      obtain ⟨rs, h1, h2, h3⟩ := ih (acc ++ [(t, r)]) h (List.nodup_cons.1 hn).2 (by
        intro x hx
        simp only [List.map_append, List.map_cons, List.map_nil, List.mem_append, List.mem_singleton, not_or]
        refine ⟨hd x (List.mem_cons_of_mem _ hx), ?_⟩
        rintro rfl; exact (List.nodup_cons.1 hn).1 hx)
      refine ⟨r :: rs, by simp [h1], by simp [h2], ?_⟩
      intro p hp
      rw [List.zip_cons_cons, List.mem_cons] at hp
      rcases hp with rfl | hp
      · exact hs
      · exact h3 p hp

/-- the result of `get_dims` without positional guess -/
theorem getDims_spec (ts : List Str) (positions : Str) (errors : EMode) (out : List (Option Str)) (w : Nat) (hn : ts.Nodup)
    (h : getDims sg types da ts false positions errors = .ok (out, w)) :
    out.length = ts.length ∧ (∀ p ∈ ts.zip out, searchDim sg types da p.1 none = .ok p.2) ∧ (errors = .raise → none ∉ out) := by
  unfold getDims at h
  split at h
  · simp at h
  · dsimp only at h
    cases hs : scanTypes sg types da ts [] with
    | error e => rw [hs] at h; simp [Except.bind] at h
    | ok sc =>
      obtain ⟨rs, h1, h2, h3⟩ := scanTypes_spec sg types da ts [] sc hs hn (by simp)
      rw [hs] at h
      simp only [Except.bind, Bool.false_eq_true, if_false] at h
      split at h
      · simp at h
      · next hr =>
        simp only [Except.ok.injEq, Prod.mk.injEq] at h
        have hout : out = rs := by
          rw [← h.1, h1, List.nil_append]
          rw [List.map_snd_zip (by omega)]
        subst hout
        refine ⟨h2, h3, ?_⟩
        intro he hm
        apply hr
        refine ⟨he, ?_⟩
        rw [← h.1] at hm
        obtain ⟨p, hp, hpn⟩ := List.mem_map.1 hm
        rw [gt_iff_lt, List.length_pos_iff_exists_mem]
        exact ⟨p, List.mem_filter.2 ⟨hp, by simp [hpn]⟩⟩

/-- **C47.** For distinct types, `get_dims` gives one answer per type, in order: a dimension of the array whose type
is the requested one (the first such dimension), or nothing, and then no dimension of the array has this type. With
`errors="raise"` there is always a dimension. -/
theorem C47_get_dims (ts : List Str) (positions : Str) (errors : EMode) (out : List (Option Str)) (w : Nat) (hn : ts.Nodup)
    (h : getDims sg types da ts false positions errors = .ok (out, w)) :
    out.length = ts.length ∧ (errors = .raise → none ∉ out) ∧
    (∀ t d, (t, some d) ∈ ts.zip out →
      ∃ pre post, da.self.dims = pre ++ d :: post ∧ HasType sg types da d (lower t) ∧ ∀ x ∈ pre, ¬ HasType sg types da x (lower t)) ∧
    (∀ t, (t, none) ∈ ts.zip out → ∀ x ∈ da.self.dims, ¬ HasType sg types da x (lower t)) := by
  obtain ⟨h1, h2, h3⟩ := getDims_spec sg types da ts positions errors out w hn h
  exact ⟨h1, h3, fun t d hm => searchDim_some sg types da t d (h2 _ hm), fun t hm => searchDim_none sg types da t (h2 _ hm)⟩

/-- **C47.** Distinct types (whatever their case) get distinct dimensions. -/
theorem C47_get_dims_injective (ts : List Str) (positions : Str) (errors : EMode) (out : List (Option Str)) (w : Nat) (hn : ts.Nodup)
    (h : getDims sg types da ts false positions errors = .ok (out, w)) (t t' d : Str)
    (h1 : (t, some d) ∈ ts.zip out) (h2 : (t', some d) ∈ ts.zip out) : lower t = lower t' := by
  obtain ⟨-, -, h3, -⟩ := C47_get_dims sg types da ts positions errors out w hn h
  obtain ⟨_, _, _, e1, _⟩ := h3 t d h1
  obtain ⟨_, _, _, e2, _⟩ := h3 t' d h2
  exact e1.unique e2

theorem dimTypesLoop_spec (unknown : Option Str) (ds : List Str) (acc m : List (Str × Option Str))
    (h : dimTypesLoop sg types da unknown ds acc = .ok m) (hn : ds.Nodup) (hd : ∀ d ∈ ds, d ∉ acc.map (·.1)) :
    ∃ ts : List (Option Str), ts.length = ds.length ∧ m = acc ++ ds.zip ts ∧
      ∀ p ∈ ds.zip ts, ∃ t, getDimType sg types p.1 (some da) = .ok t ∧ p.2 = t.elim unknown some := by
  induction ds generalizing acc with
  | nil => simp [dimTypesLoop] at h; exact ⟨[], rfl, by simp [h], by simp⟩
  | cons d ds ih =>
    unfold dimTypesLoop at h
    cases hs : getDimType sg types d (some da) with
    | error e => rw [hs] at h; simp [Except.bind] at h
    | ok r =>
      rw [hs] at h
      simp only [Except.bind] at h
      rw [setS_append_new _ _ _ (hd d (by simp))] at h
      obtain ⟨ts, h1, h2, h3⟩ := ih _ h (List.nodup_cons.1 hn).2 (by
        intro x hx
        simp only [List.map_append, List.map_cons, List.map_nil, List.mem_append, List.mem_singleton, not_or]
        refine ⟨hd x (List.mem_cons_of_mem _ hx), ?_⟩
        rintro rfl; exact (List.nodup_cons.1 hn).1 hx)
      refine ⟨r.elim unknown some :: ts, by simp [h1], by simp [h2], ?_⟩
      intro p hp
      rw [List.zip_cons_cons, List.mem_cons] at hp
      rcases hp with rfl | hp
      · exact ⟨r, hs, rfl⟩
      · exact h3 p hp

/-- **C47 (`get_dim_types`).** One item per dimension, in order: its type, or `unknown`. -/
theorem C47_get_dim_types (unknown : Option Str) (m : List (Str × Option Str)) (hn : da.self.dims.Nodup)
    (h : getDimTypes sg types da unknown = .ok m) :
    m.map (·.1) = da.self.dims ∧ ∀ d t, (d, t) ∈ m → ∃ r, getDimType sg types d (some da) = .ok r ∧ t = r.elim unknown some := by
  obtain ⟨ts, h1, h2, h3⟩ := dimTypesLoop_spec sg types da unknown da.self.dims [] m h hn (by simp)
  rw [List.nil_append] at h2
  subst h2
  exact ⟨List.map_fst_zip (by omega), fun d t hm => h3 (d, t) hm⟩

/-- **C47 (consistency).** The dimension that `get_dims` gives for a type has this type in `get_dim_types`. -/
theorem C47_consistent (ts : List Str) (positions : Str) (errors : EMode) (out : List (Option Str)) (w : Nat) (hn : ts.Nodup)
    (h : getDims sg types da ts false positions errors = .ok (out, w)) (unknown : Option Str) (m : List (Str × Option Str))
    (hdn : da.self.dims.Nodup) (hm : getDimTypes sg types da unknown = .ok m) (t d : Str) (htd : (t, some d) ∈ ts.zip out) :
    lookupS d m = some (some (lower t)) := by
  obtain ⟨-, -, h3, -⟩ := C47_get_dims sg types da ts positions errors out w hn h
  obtain ⟨pre, post, e, e1, -⟩ := h3 t d htd
  obtain ⟨k1, k2⟩ := C47_get_dim_types sg types da unknown m hdn hm
  have hd : d ∈ m.map (·.1) := by rw [k1, e]; simp
  cases hl : lookupS d m with
  | none => exact absurd hl (lookupS_some_of_mem d m hd)
  | some v =>
    obtain ⟨r, r1, r2⟩ := k2 d v (mem_of_lookupS _ _ _ hl)
    rw [e1.2] at r1; injection r1 with r1; subst r1
    rw [r2]; rfl

/-- **C47 (errors).** With `errors="ignore"`, `get_dims` fails only when the type of a dimension cannot be computed. -/
theorem C47_ignore_never_raises (ts : List Str) (positions : Str) (hok : ∀ d ∈ da.self.dims, ∃ t, getDimType sg types d (some da) = .ok t) :
    ∃ out, getDims sg types da ts false positions .ignore = .ok (out, 0) := by
  have hd : ∀ t, ∃ r, searchDim sg types da t none = .ok r := by
    intro t
    unfold searchDim
    generalize lower t = t'
    have : ∀ ds : List Str, (∀ d ∈ ds, d ∈ da.self.dims) → ∃ r, searchDimLoop sg types da t' none ds = .ok r := by
      intro ds
      induction ds with
      | nil => intro _; exact ⟨none, rfl⟩
      | cons a ds ih =>
        intro hds
        obtain ⟨ty, hty⟩ := hok a (hds a (by simp))
        obtain ⟨r, hr⟩ := ih (fun d hd => hds d (List.mem_cons_of_mem _ hd))
        unfold searchDimLoop
        rw [if_neg (by simp [locSkip]), hty]
        simp only [Except.bind]
        by_cases hc : ty = some t' ∧ t' ≠ []
        · exact ⟨some a, by rw [if_pos hc]⟩
        · exact ⟨r, by rw [if_neg hc]; exact hr⟩
    exact this _ (fun _ h => h)
  have hs : ∀ acc, ∃ out, scanTypes sg types da ts acc = .ok out := by
    induction ts with
    | nil => intro acc; exact ⟨acc, rfl⟩
    | cons t ts ih =>
      intro acc
      obtain ⟨r, hr⟩ := hd t
      obtain ⟨o, ho⟩ := ih (setS t r acc)
      exact ⟨o, by simp only [scanTypes, hr, Except.bind, ho]⟩
  obtain ⟨o, ho⟩ := hs []
  exact ⟨o.map (·.2), by simp [getDims, ho, Except.bind]⟩

/-- **C92, what the code does instead (located dimensions).** A dimension with a location whose root is neither a
known dimension nor a dimension of the array makes `get_dims` fail, even with `errors="ignore"`. -/
theorem C92_located_dim_violated (d : Str) (ds : List Str) (t : Str) (ts : List Str) (positions : Str) (b : Bool) (hdims : da.self.dims = d :: ds)
    (hr : (parseAttr sg .name d).1 ∉ da.self.dims) (hk : ∀ p ∈ types, lower (parseAttr sg .name d).1 ∉ p.2) :
    getDims sg types da (t :: ts) b positions .ignore = .error .notADim := by
  have h1 : getDimType sg types d (some da) = .error .notADim := by
    unfold getDimType
    have : types.find? (fun p => decide (lower (parseAttr sg .name d).1 ∈ p.2)) = none := by
      rw [List.find?_eq_none]; intro p hp; simpa using hk p hp
    simp only [this, if_pos hr]
  have h2 : searchDim sg types da t none = .error .notADim := by
    unfold searchDim
    rw [hdims, searchDimLoop, if_neg (by simp [locSkip]), h1]
    rfl
  simp [getDims, scanTypes, h2, Except.bind]

/-- **C92, what the code does instead (repeated types).** A type that is asked twice is answered once. -/
theorem C92_repeated_type_violated (t : Str) (positions : Str) (out : List (Option Str)) (w : Nat)
    (h : getDims sg types da [t, t] false positions .ignore = .ok (out, w)) : out.length = 1 := by
  cases hs : searchDim sg types da t none with
  | error e => simp [getDims, scanTypes, hs, Except.bind] at h
  | ok r =>
    simp only [getDims, scanTypes, hs, Except.bind, setS, if_true] at h
    simp only [reduceCtorEq, false_and, if_false, Bool.false_eq_true, Except.ok.injEq, Prod.mk.injEq] at h
    rw [← h.1]; rfl

/-- **C92, what the code does instead (positions).** With `allow_positional`, two types may get the same dimension:
here the first dimension is the `x` one, and the type `y`, not found, is given this dimension again by position. -/
theorem C92_positional_violated (a b : Str) (hab : da.self.dims = [a, b]) (ha : getDimType sg types a (some da) = .ok (some ['x']))
    (hb : getDimType sg types b (some da) = .ok none) :
    getDims sg types da [['y'], ['x']] true "tzyx".toList .ignore = .ok ([some a, some a], 0) := by
  have h1 : searchDim sg types da ['y'] none = .ok none := by
    have e : lower ['y'] = ['y'] := by decide
    unfold searchDim
    rw [hab, e]
    simp [searchDimLoop, locSkip, ha, hb, Except.bind]
  have h2 : searchDim sg types da ['x'] none = .ok (some a) := by
    have e : lower ['x'] = ['x'] := by decide
    unfold searchDim
    rw [hab, e]
    simp [searchDimLoop, locSkip, ha, Except.bind]
  simp [getDims, scanTypes, h1, h2, Except.bind, setS, guessLoop, hab]

/-- **C92, what the code does instead (positions).** With `allow_positional`, an array with fewer dimensions than the
position of the type makes `get_dims` fail with an `IndexError`, even with `errors="ignore"`. -/
theorem C92_positional_index_violated (a : Str) (ha' : da.self.dims = [a]) (ha : getDimType sg types a (some da) = .ok none) :
    getDims sg types da [['y']] true "tzyx".toList .ignore = .error .indexError := by
  have h1 : searchDim sg types da ['y'] none = .ok none := by
    have e : lower ['y'] = ['y'] := by decide
    unfold searchDim
    rw [ha', e]
    simp [searchDimLoop, locSkip, ha, Except.bind]
  simp [getDims, scanTypes, h1, Except.bind, setS, guessLoop, ha']

theorem guessLoop_spec (dims nf : List Str) (ps : List Char) (i : Nat) (acc out : List (Str × Option Str))
    (h : guessLoop dims nf ps i acc = .ok out) (hk : ∀ t ∈ nf, t ∈ acc.map (·.1)) :
    out.map (·.1) = acc.map (·.1) ∧ (∀ t, t ∉ nf → lookupS t out = lookupS t acc) ∧
    ∀ t v, lookupS t out = some v → lookupS t acc = some v ∨ ∃ d ∈ dims, v = some d := by
  induction ps generalizing i acc with
  | nil => simp [guessLoop] at h; subst h; exact ⟨rfl, fun _ _ => rfl, fun t v hv => Or.inl hv⟩
  | cons c ps ih =>
    unfold guessLoop at h
    by_cases hc : [c] ∈ nf
    · rw [if_pos hc] at h
      cases hd : dims.reverse[i]? with
      | none => rw [hd] at h; simp at h
      | some d =>
        rw [hd] at h
        dsimp only at h
        have hne := lookupS_some_of_mem [c] acc (hk _ hc)
        have hkeys := setS_keys [c] (some d) acc hne
        obtain ⟨h1, h2, h3⟩ := ih (i + 1) _ h (fun t ht => by rw [hkeys]; exact hk t ht)
        refine ⟨h1.trans hkeys, ?_, ?_⟩
        · intro t ht
          rw [h2 t ht, lookupS_setS, if_neg]
          rintro rfl; exact ht hc
        · intro t v hv
          rcases h3 t v hv with h | h
          · rw [lookupS_setS] at h
            split at h
            · injection h with h
              exact Or.inr ⟨d, List.mem_reverse.1 (List.mem_of_getElem? hd), h.symm⟩
            · exact Or.inl h
          · exact Or.inr h
    · rw [if_neg hc] at h
      exact ih (i + 1) acc h hk

theorem zip_map_fst_snd {α β : Type} (l : List (α × β)) : l = (l.map (·.1)).zip (l.map (·.2)) := by
  induction l with
  | nil => rfl
  | cons a l ih => simp only [List.map_cons, List.zip_cons_cons, ← ih]

theorem lookup_zip (ts : List Str) (rs : List (Option Str)) (t : Str) (r : Option Str) (hn : ts.Nodup) (hl : rs.length = ts.length)
    (h : (t, r) ∈ ts.zip rs) : lookupS t (ts.zip rs) = some r := by
  induction ts generalizing rs with
  | nil => simp at h
  | cons a ts ih =>
    cases rs with
    | nil => simp at hl
    | cons b rs =>
      rw [List.zip_cons_cons, List.mem_cons] at h
      rw [List.zip_cons_cons]
      simp only [lookupS]
      rw [List.nodup_cons] at hn
      rcases h with h | h
      · injection h with h1 h2; subst h1; subst h2; simp
      · have : t ≠ a := by rintro rfl; exact hn.1 (List.of_mem_zip h).1
        rw [if_neg this]; exact ih rs hn.2 (by simpa using hl) h

/-- **C92 (with positions).** With `allow_positional` too there is one answer per type, all of them dimensions of the
array (or nothing), and the types that are found by name are answered as without it. -/
theorem C92_positional_partial (ts : List Str) (positions : Str) (errors : EMode) (out : List (Option Str)) (w : Nat) (hn : ts.Nodup)
    (h : getDims sg types da ts true positions errors = .ok (out, w)) :
    out.length = ts.length ∧ (∀ d, some d ∈ out → d ∈ da.self.dims) ∧
    ∀ t d, t ∈ ts → searchDim sg types da t none = .ok (some d) → (t, some d) ∈ ts.zip out := by
  unfold getDims at h
  split at h
  · simp at h
  · dsimp only at h
    cases hs : scanTypes sg types da ts [] with
    | error e => rw [hs] at h; simp [Except.bind] at h
    | ok sc =>
      obtain ⟨rs, h1, h2, h3⟩ := scanTypes_spec sg types da ts [] sc hs hn (by simp)
      rw [List.nil_append] at h1
      rw [hs] at h
      simp only [Except.bind, if_true] at h
      cases hg : guessLoop da.self.dims ((sc.filter (fun p => p.2.isNone)).map (·.1)) positions.reverse 0 sc with
      | error e => rw [hg] at h; simp at h
      | ok sc2 =>
        rw [hg] at h
        dsimp only at h
        split at h
        · simp at h
        · simp only [Except.ok.injEq, Prod.mk.injEq] at h
          have hkeys : sc.map (·.1) = ts := by rw [h1]; exact List.map_fst_zip (by omega)
          obtain ⟨g1, g2, g3⟩ := guessLoop_spec _ _ _ _ _ _ hg (by
            intro t ht
            obtain ⟨p, hp, rfl⟩ := List.mem_map.1 ht
            exact List.mem_map.2 ⟨p, (List.mem_filter.1 hp).1, rfl⟩)
          have hk2 : sc2.map (·.1) = ts := g1.trans hkeys
          have hz : sc2 = ts.zip out := by
            rw [← h.1, ← hk2]
            exact zip_map_fst_snd sc2
          have hlen : out.length = ts.length := by
            rw [← h.1, ← hk2]; simp
          refine ⟨hlen, ?_, ?_⟩
          · intro d hd
            rw [← h.1] at hd
            obtain ⟨p, hp, hpd⟩ := List.mem_map.1 hd
            have hp' : (p.1, some d) ∈ ts.zip out := by rw [← hz, ← hpd]; exact hp
            have hl := lookup_zip ts out p.1 (some d) hn hlen hp'
            rw [← hz] at hl
            rcases g3 _ _ hl with hl | ⟨d', hd', e⟩
            · rw [h1] at hl
              obtain ⟨pre, post, e, -⟩ := searchDim_some sg types da p.1 d (h3 _ (mem_of_lookupS _ _ _ hl))
              rw [e]; simp
            · injection e with e; rw [e]; exact hd'
          · intro t d ht hd
            have hl : ∃ r, lookupS t sc = some r := by
              cases hx : lookupS t sc with
              | none => exact absurd hx (lookupS_some_of_mem t sc (by rw [hkeys]; exact ht))
              | some r => exact ⟨r, rfl⟩
            obtain ⟨r, hr⟩ := hl
            have hr2 := h3 (t, r) (by rw [← h1]; exact mem_of_lookupS _ _ _ hr)
            rw [hd] at hr2; injection hr2 with hr2; subst hr2
            have hnf : t ∉ (sc.filter (fun p => p.2.isNone)).map (·.1) := by
              intro hm
              obtain ⟨p, hp, rfl⟩ := List.mem_map.1 hm
              obtain ⟨hp1, hp2⟩ := List.mem_filter.1 hp
              have : lookupS p.1 (ts.zip rs) = some p.2 := lookup_zip ts rs p.1 p.2 hn h2 (by rw [← h1]; exact hp1)
              rw [← h1, hr] at this
              injection this with this
              rw [← this] at hp2; simp at hp2
            have := g2 t hnf
            rw [hr] at this
            rw [← hz]; exact mem_of_lookupS _ _ _ this

/-! ### an example -/

def sgDims : SG := { valid := ["u".toList, "v".toList] }
def typesDims : CfDims := [("x".toList, ["lon".toList, "xi".toList]), ("y".toList, ["lat".toList]), ("z".toList, ["lev".toList])]

/-- `temp(time, lev, Y, xi_u)` with a coordinate `Y` of axis `Y` -/
def daDims : DArr := ⟨⟨["time", "lev", "Y", "xi_u"].map String.toList, none, none⟩, [("Y".toList, ⟨["Y".toList], some "Y".toList, none⟩)]⟩

example : getDims sgDims typesDims daDims [['x'], ['Y'], ['f']] false "tzyx".toList .warn = .ok ([some "xi_u".toList, some "Y".toList, none], 1) := by
  decide +kernel

/-- two x dimensions at two locations: the one at the location that is asked for is found -/
example : let a : DArr := ⟨⟨["xi_u", "xi_v"].map String.toList, none, none⟩, []⟩
    searchDim sgDims typesDims a ['x'] (some ['v']) = .ok (some "xi_v".toList) ∧ searchDim sgDims typesDims a ['x'] none = .ok (some "xi_u".toList) ∧
    searchDim sgDims typesDims a ['x'] (some ['w']) = .ok none := by decide +kernel

example : getDimTypes sgDims typesDims daDims (some ['?']) =
    .ok [("time".toList, some ['?']), ("lev".toList, some ['z']), ("Y".toList, some ['y']), ("xi_u".toList, some ['x'])] := by decide +kernel

/-- a dimension with a location and an unknown root -/
example : getDims sgDims typesDims ⟨⟨["foo_u", "lon"].map String.toList, none, none⟩, []⟩ [['x']] false "tzyx".toList .ignore = .error .notADim := by
  decide +kernel

example : getDims sgDims typesDims ⟨⟨["lon", "foo"].map String.toList, none, none⟩, []⟩ [['y'], ['x']] true "tzyx".toList .ignore =
    .ok ([some "lon".toList, some "lon".toList], 0) := by decide +kernel

/-! ## C64: search_dim without type, and the coordinate of a dimension -/

theorem searchDimLoop0_spec (axis loc : Option Str) (dims : List Str) (last : Option (Option Str)) (d a : Str)
    (h : searchDimLoop0 sg types da axis loc dims last = .ok (.inl (d, a))) : axis = some a ∧ d ∈ dims ∧ HasType sg types da d a := by
  induction dims generalizing last with
  | nil => simp [searchDimLoop0] at h
  | cons x ds ih =>
    unfold searchDimLoop0 at h
    split at h
    · obtain ⟨h1, h2, h3⟩ := ih _ h; exact ⟨h1, List.mem_cons_of_mem _ h2, h3⟩
    · cases hg : getDimType sg types x (some da) with
      | error e => rw [hg] at h; simp [Except.bind] at h
      | ok t =>
        rw [hg] at h
        simp only [Except.bind] at h
        cases axis with
        | none => obtain ⟨h1, h2, h3⟩ := ih _ h; exact ⟨h1, List.mem_cons_of_mem _ h2, h3⟩
        | some ax =>
          dsimp only at h
          split at h
          · next hc =>
            simp only [Except.ok.injEq, Sum.inl.injEq, Prod.mk.injEq] at h
            obtain ⟨rfl, rfl⟩ := h
            exact ⟨rfl, by simp, hc.1, by rw [hg, hc.2]⟩
          · obtain ⟨h1, h2, h3⟩ := ih _ h; exact ⟨h1, List.mem_cons_of_mem _ h2, h3⟩

/-- **C64 (dimension of a coordinate).** Without type, the dimension that is found belongs to the array; for an array
with several dimensions its type is the axis of the array. -/
theorem C64_dim_of_coord (loc : Option Str) (d : Str) (t : Option Str) (h : searchDim0 sg types da loc = .ok (some d, t)) :
    d ∈ da.self.dims ∧ (da.self.dims ≠ [d] → ∃ a, t = some a ∧ getAxisL da.self = some a ∧ HasType sg types da d a) := by
  unfold searchDim0 at h
  cases hl : searchDimLoop0 sg types da (getAxisL da.self) loc da.self.dims none with
  | error e => rw [hl] at h; simp [Except.bind] at h
  | ok r =>
    rw [hl] at h
    simp only [Except.bind] at h
    cases r with
    | inl p =>
      obtain ⟨d', a⟩ := p
      simp only [Except.ok.injEq, Prod.mk.injEq, Option.some.injEq] at h
      obtain ⟨rfl, rfl⟩ := h
      obtain ⟨h1, h2, h3⟩ := searchDimLoop0_spec sg types da _ _ _ _ _ _ hl
      exact ⟨h2, fun _ => ⟨a, rfl, h1, h3⟩⟩
    | inr last =>
      dsimp only at h
      split at h
      · next x hx =>
        cases last with
        | none => simp at h
        | some t' =>
          simp only [Except.ok.injEq, Prod.mk.injEq, Option.some.injEq] at h
          obtain ⟨rfl, rfl⟩ := h
          exact ⟨by rw [hx]; simp, fun hne => absurd hx hne⟩
      · simp at h

theorem mem_insertByNdim (c x : Str × AxArr) (l : List (Str × AxArr)) : x ∈ insertByNdim c l ↔ x = c ∨ x ∈ l := by
  induction l with
  | nil => simp [insertByNdim]
  | cons d l ih =>
    unfold insertByNdim
    split
    · simp only [List.mem_cons, ih]; tauto
    · simp only [List.mem_cons]

theorem insertByNdim_sorted (c : Str × AxArr) (l : List (Str × AxArr)) (h : l.Pairwise (fun a b => b.2.dims.length ≤ a.2.dims.length)) :
    (insertByNdim c l).Pairwise (fun a b => b.2.dims.length ≤ a.2.dims.length) := by
  induction l with
  | nil => simp [insertByNdim]
  | cons d l ih =>
    rw [List.pairwise_cons] at h
    unfold insertByNdim
    split
    · next hc =>
      rw [List.pairwise_cons]
      refine ⟨?_, ih h.2⟩
      intro x hx
      rcases (mem_insertByNdim c x l).1 hx with rfl | hx
      · exact hc
      · exact h.1 x hx
    · next hc =>
      rw [List.pairwise_cons]
      refine ⟨?_, List.pairwise_cons.2 h⟩
      intro x hx
      rcases List.mem_cons.1 hx with rfl | hx
      · omega
      · have := h.1 x hx; omega

theorem sortByNdim_spec (l : List (Str × AxArr)) :
    (∀ x, x ∈ sortByNdim l ↔ x ∈ l) ∧ (sortByNdim l).Pairwise (fun a b => b.2.dims.length ≤ a.2.dims.length) := by
  unfold sortByNdim
  have : ∀ acc : List (Str × AxArr), acc.Pairwise (fun a b => b.2.dims.length ≤ a.2.dims.length) →
      (∀ x, x ∈ l.foldl (fun acc c => insertByNdim c acc) acc ↔ x ∈ l ∨ x ∈ acc) ∧
      (l.foldl (fun acc c => insertByNdim c acc) acc).Pairwise (fun a b => b.2.dims.length ≤ a.2.dims.length) := by
    induction l with
    | nil => intro acc h; exact ⟨by simp, h⟩
    | cons c l ih =>
      intro acc h
      obtain ⟨h1, h2⟩ := ih (insertByNdim c acc) (insertByNdim_sorted c acc h)
      refine ⟨?_, h2⟩
      intro x
      rw [List.foldl_cons, h1, mem_insertByNdim, List.mem_cons]
      tauto
  obtain ⟨h1, h2⟩ := this [] List.Pairwise.nil
  exact ⟨fun x => by simpa using h1 x, h2⟩

/-- **C64 (coordinate of a dimension).** `search_from_dim` gives a coordinate of the array. Either it has the name of the
dimension and is the only coordinate along it, or it has this dimension, its axis is the type of the dimension, and no
coordinate of this type along this dimension has more dimensions. -/
theorem C64_search_from_dim (dim n : Str) (c : AxArr) (h : searchFromDim sg types da dim = .ok (some (n, c))) :
    (n, c) ∈ da.coords ∧
    ((n = dim ∧ ∀ p ∈ da.coords, dim ∈ p.2.dims → p.1 = dim) ∨
     ∃ t, dim ∈ c.dims ∧ HasType sg types da dim t ∧ getAxisL c = some t ∧
       ∀ p ∈ da.coords, dim ∈ p.2.dims → getAxisL p.2 = some t → p.2.dims.length ≤ c.dims.length) := by
  unfold searchFromDim at h
  split at h
  · simp at h
  · have hrest : ((getDimType sg types dim (some da)).bind fun t =>
        match t with
        | none => .ok none
        | some t => .ok ((sortByNdim da.coords).find? (fun c => decide (dim ∈ c.2.dims ∧ t ≠ [] ∧ getAxisL c.2 = some t)))) =
          (Except.ok (some (n, c)) : Except DErr (Option (Str × AxArr))) → (n, c) ∈ da.coords ∧ ∃ t, dim ∈ c.dims ∧ HasType sg types da dim t ∧ getAxisL c = some t ∧
       ∀ p ∈ da.coords, dim ∈ p.2.dims → getAxisL p.2 = some t → p.2.dims.length ≤ c.dims.length := by
      intro h
      cases hg : getDimType sg types dim (some da) with
      | error e => rw [hg] at h; simp [Except.bind] at h
      | ok t =>
        rw [hg] at h
        simp only [Except.bind] at h
        cases t with
        | none => simp at h
        | some t =>
          simp only [Except.ok.injEq] at h
          obtain ⟨hs, as, bs, he, hb⟩ := List.find?_eq_some_iff_append.1 h
          have hs := of_decide_eq_true hs
          obtain ⟨m1, m2⟩ := sortByNdim_spec da.coords
          refine ⟨(m1 _).1 (by rw [he]; simp), t, hs.1, ⟨hs.2.1, hg⟩, hs.2.2, ?_⟩
          intro p hp hd ha
          have hp' := (m1 p).2 hp
          rw [he] at hp' m2
          rcases List.mem_append.1 hp' with hp' | hp'
          · have := hb p hp'
            simp only [Bool.not_eq_true', decide_eq_false_iff_not] at this
            exact absurd ⟨hd, hs.2.1, ha⟩ this
          · rcases List.mem_cons.1 hp' with rfl | hp'
            · exact Nat.le_refl _
            · exact (List.pairwise_cons.1 (List.pairwise_append.1 m2).2.1).1 p hp'
    dsimp only at h
    split at h
    · next c' hc =>
      split at h
      · next hall =>
        simp only [Except.ok.injEq, Option.some.injEq, Prod.mk.injEq] at h
        obtain ⟨rfl, rfl⟩ := h
        refine ⟨mem_of_lookupS _ _ _ hc, Or.inl ⟨rfl, ?_⟩⟩
        intro p hp hd
        have := of_decide_eq_true (List.all_eq_true.1 hall p hp)
        exact this.resolve_right (fun hn => hn hd)
      · obtain ⟨h1, h2⟩ := hrest h; exact ⟨h1, Or.inr h2⟩
    · obtain ⟨h1, h2⟩ := hrest h; exact ⟨h1, Or.inr h2⟩

/-- **C64.** A dimension that is not one of the array is refused. -/
theorem C64_invalid_dim (dim : Str) (h : dim ∉ da.self.dims) : searchFromDim sg types da dim = .error .invalidDim := by
  simp [searchFromDim, h]

/-- a sigma coordinate and a depth that has more dimensions: the depth is chosen -/
example : (searchFromDim sgDims typesDims ⟨⟨["lev", "lon"].map String.toList, none, none⟩,
      [("lev".toList, ⟨["lev".toList], some ['Z'], none⟩), ("depth".toList, ⟨["lev", "lon"].map String.toList, none, some ['Z']⟩)]⟩ "lev".toList).map
      (fun r => r.map Prod.fst) = .ok (some "depth".toList) := by decide +kernel

end Xoa
