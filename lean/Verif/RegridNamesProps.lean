import Verif.RegridNames
import Verif.CfBuiltinDimsProps

/-!
# The names that `regrid1d` infers (C179)
-/

namespace Xoa

variable (sg : SG) (types : CfDims) (da cout : DArr)

/-- the output dimension that is used: the one that is given, or else one of the output coordinate whose type is the axis of this coordinate, or its only dimension -/
def OutDim (given : Option Str) (d : Str) : Prop :=
  d ∈ cout.self.dims ∧ match given with
    | some g => d = g
    | none => cout.self.dims = [d] ∨ ∃ a, AxisOf cout.self (some a) ∧ HasType sg types cout d a

/-- the input dimension that is used: the one that is given, or else a dimension of a coordinate of the data that has the type of the output dimension `d1`,
or else, when this dimension has no type, the same dimension -/
def InDim (given : Option Str) (d1 d : Str) : Prop :=
  d ∈ da.self.dims ∧ match given with
    | some g => d = g
    | none => (∃ t, HasType sg types cout d1 t ∧ ∃ p ∈ da.coords, d ∈ p.2.dims ∧ HasType sg types (da.sub p.2) d (lower t)) ∨
        ((∀ t, ¬ HasType sg types cout d1 t) ∧ d = d1)

/-- the input coordinate that is used: the one that is given, or else one of the data along the input dimension `d0`: the coordinate of this name when it is the only one along it, or
one that has the type of this dimension -/
def InCoord (given : Option Str) (d0 n : Str) : Prop :=
  match given.getD [] with
    | [] => ∃ c, (n, c) ∈ da.coords ∧ ((n = d0 ∧ ∀ p ∈ da.coords, d0 ∈ p.2.dims → p.1 = d0) ∨ ∃ t, d0 ∈ c.dims ∧ HasType sg types da d0 t ∧ AxisOf c (some t))
    | g => n = g ∧ n ∈ da.coords.map (·.1)

theorem mapError_ok {ε δ α : Type} (f : ε → δ) (x : Except ε α) (a : α) (h : x.mapError f = .ok a) : x = .ok a := by
  cases x with
  | error e => simp [Except.mapError] at h
  | ok b => simpa [Except.mapError] using h

theorem exc_bind_ok {ε α β : Type} (x : Except ε α) (f : α → Except ε β) (b : β) (h : x.bind f = .ok b) : ∃ a, x = .ok a ∧ f a = .ok b := by
  cases x with
  | error e => simp [Except.bind] at h
  | ok a => exact ⟨a, rfl, h⟩

theorem exc_map_ok {ε α β : Type} (x : Except ε α) (f : α → β) (b : β) (h : x.map f = .ok b) : ∃ a, x = .ok a ∧ f a = b := by
  cases x with
  | error e => simp [Except.map] at h
  | ok a => exact ⟨a, rfl, by simpa [Except.map] using h⟩

/-- the type that comes with the dimension of the output coordinate -/
theorem searchDim0_type (d : Str) (t : Option Str) (h : searchDim0 sg types cout none = .ok (some d, t)) :
    getDimType sg types d (some cout) = .ok t ∧ (cout.self.dims = [d] ∨ ∃ a, t = some a ∧ AxisOf cout.self (some a) ∧ HasType sg types cout d a) := by
  have h0 := C64_dim_of_coord sg types cout none d t h
  by_cases hd : cout.self.dims = [d]
  · refine ⟨?_, Or.inl hd⟩
    unfold searchDim0 at h
    obtain ⟨r, hr, h⟩ := exc_bind_ok _ _ _ h
    rw [hd] at hr
    unfold searchDimLoop0 at hr
    have hs : locSkip sg none d = false := rfl
    rw [hs, if_neg (by simp)] at hr
    obtain ⟨t', ht, hr⟩ := exc_bind_ok _ _ _ hr
    rw [ht]
    cases r with
    | inl p =>
      obtain ⟨d', a⟩ := p
      simp only [Except.ok.injEq, Prod.mk.injEq, Option.some.injEq] at h
      obtain ⟨rfl, rfl⟩ := h
      cases ha : getAxisL cout.self with
      | none => rw [ha] at hr; simp [searchDimLoop0] at hr
      | some a' =>
        rw [ha] at hr
        dsimp only at hr
        split at hr
        · next hc =>
          simp only [Except.ok.injEq, Sum.inl.injEq, Prod.mk.injEq] at hr
          rw [hc.2, hr.2]
        · simp [searchDimLoop0] at hr
    | inr last =>
      rw [hd] at h
      dsimp only at h
      have hl : last = some t' := by
        cases ha : getAxisL cout.self with
        | none => rw [ha] at hr; simpa [searchDimLoop0, eq_comm] using hr
        | some a' =>
          rw [ha] at hr
          dsimp only at hr
          split at hr
          · simp at hr
          · simpa [searchDimLoop0, eq_comm] using hr
      rw [hl] at h
      simp only [Except.ok.injEq, Prod.mk.injEq, Option.some.injEq, true_and] at h
      rw [h]
  · obtain ⟨a, rfl, ha, ht⟩ := h0.2 hd
    exact ⟨ht.2, Or.inr ⟨a, rfl, (axisOf_iff _ _).1 ha, ht⟩⟩

theorem namesInLoop_ok (t d : Str) : ∀ cs : List (Str × AxArr), namesInLoop sg types da t cs = .ok d →
    ∃ p ∈ cs, d ∈ p.2.dims ∧ HasType sg types (da.sub p.2) d (lower t) := by
  intro cs
  induction cs with
  | nil => intro h; simp [namesInLoop] at h
  | cons c cs ih =>
    intro h
    unfold namesInLoop at h
    obtain ⟨r, hr, h⟩ := exc_bind_ok _ _ _ h
    have hr := mapError_ok _ _ _ hr
    split at h
    · obtain ⟨p, hp, h2⟩ := ih h
      exact ⟨p, List.mem_cons_of_mem _ hp, h2⟩
    · next hne =>
      cases r with
      | none => simp at hne
      | some d' =>
        have : d' = d := by simpa using h
        subst this
        obtain ⟨pre, post, e, ht, -⟩ := searchDim_some sg types _ t d' hr
        refine ⟨c, by simp, ?_, ht⟩
        have : d' ∈ (da.sub c.2).self.dims := by rw [e]; simp
        exact this

theorem namesOut_given (b : Bool) (g : Str) (o : Option Str × Option Str) (h : namesOut sg types cout b (some g) = .ok o) :
    o.1 = some g ∧ getDimType sg types g (some cout) = .ok o.2 := by
  simp only [namesOut] at h
  split at h
  · obtain ⟨t, ht, h⟩ := exc_map_ok _ _ _ h
    rw [← h]
    exact ⟨rfl, mapError_ok _ _ _ ht⟩
  · simp at h

/-- **C179** (what is chosen): whatever names are given or not, when `regrid1d` accepts an array and an output coordinate, it works along dimensions and a coordinate
as documented: those that are given, or else a dimension of the output coordinate that has its type (or its only one), a dimension of the data of the same type, and a coordinate of the
data along this dimension. -/
theorem C179_chosen_partial (dim : Option Str × Option Str) (name : Option Str) (named : Bool) (d0 d1 n : Str)
    (h : regridNames sg types da cout dim name named = .ok (d0, d1, n)) :
    OutDim sg types cout dim.2 d1 ∧ InDim sg types da cout dim.1 d1 d0 ∧ InCoord sg types da name d0 n := by
  unfold regridNames at h
  obtain ⟨out, ho, h⟩ := exc_bind_ok _ _ _ h
  obtain ⟨od0, hi, h⟩ := exc_bind_ok _ _ _ h
  cases od0 with
  | none => simp at h
  | some e0 =>
  obtain ⟨o1, o2⟩ := out
  cases o1 with
  | none => simp at h
  | some e1 =>
  dsimp only [Option.elim] at h
  split at h
  · simp at h
  next hd =>
  push Not at hd
  obtain ⟨n', hn, h⟩ := exc_map_ok _ _ _ h
  simp only [Prod.mk.injEq] at h
  obtain ⟨rfl, rfl, rfl⟩ := h
  -- the type of the output dimension
  have htype : dim.1 = none → getDimType sg types e1 (some cout) = .ok o2 := by
    intro _
    cases hd2 : dim.2 with
    | none =>
      rw [hd2] at ho
      exact (searchDim0_type sg types cout e1 o2 (mapError_ok _ _ _ ho)).1
    | some g =>
      rw [hd2] at ho
      obtain ⟨h1, h2⟩ := namesOut_given _ _ _ _ _ _ ho
      simp only [Option.some.injEq] at h1
      rw [h1]
      exact h2
  refine ⟨⟨hd.2, ?_⟩, ⟨hd.1, ?_⟩, ?_⟩
  · cases hd2 : dim.2 with
    | none =>
      rw [hd2] at ho
      rcases (searchDim0_type sg types cout e1 o2 (mapError_ok _ _ _ ho)).2 with h | ⟨a, _, h1, h2⟩
      · exact Or.inl h
      · exact Or.inr ⟨a, h1, h2⟩
    | some g =>
      rw [hd2] at ho
      obtain ⟨h1, h2⟩ := namesOut_given _ _ _ _ _ _ ho
      simpa using h1
  · cases hd1 : dim.1 with
    | some g =>
      rw [hd1] at hi
      simpa [namesIn, eq_comm] using hi
    | none =>
      have htype := htype hd1
      rw [hd1] at hi
      unfold namesIn at hi
      dsimp only at hi
      split at hi
      · next ht =>
        right
        refine ⟨fun t ⟨ht1, ht2⟩ => ?_, by simpa [eq_comm] using hi⟩
        rw [htype] at ht2
        simp only [Except.ok.injEq] at ht2
        rw [ht2] at ht
        exact ht1 ht
      · next ht =>
        left
        obtain ⟨d, hl, hi⟩ := exc_map_ok _ _ _ hi
        have : d = e0 := by simpa using hi
        subst this
        obtain ⟨t, ht'⟩ : ∃ t, o2 = some t := by
          cases o2 with
          | none => simp at ht
          | some t => exact ⟨t, rfl⟩
        rw [ht'] at ht hl htype
        obtain ⟨p, hp, h1, h2⟩ := namesInLoop_ok sg types da _ _ _ hl
        exact ⟨t, ⟨ht, htype⟩, p, hp, h1, h2⟩
  · unfold namesCoord at hn
    unfold InCoord
    cases hg : name.getD [] with
    | nil =>
      rw [hg, if_pos rfl] at hn
      obtain ⟨r, hr, hn⟩ := exc_bind_ok _ _ _ hn
      have hr := mapError_ok _ _ _ hr
      cases r with
      | none => simp at hn
      | some p =>
        have : p.1 = n' := by simpa using hn
        subst this
        obtain ⟨h1, h2⟩ := C64_search_from_dim sg types da e0 p.1 p.2 hr
        refine ⟨p.2, h1, ?_⟩
        rcases h2 with h2 | ⟨t, h2, h3, h4, -⟩
        · exact Or.inl h2
        · exact Or.inr ⟨t, h2, h3, (axisOf_iff _ _).1 h4⟩
    | cons c cs =>
      rw [hg, if_neg (by simp)] at hn
      dsimp only
      split at hn
      · simp at hn
      · next hm =>
        split at hn
        · have : c :: cs = n' := by simpa using hn
          rw [← this]
          exact ⟨rfl, by simpa using hm⟩
        · simp at hn

/-- **C179 is violated** (no dimension found): when the dimensions are not given, and no dimension of the output coordinate, which has several ones, has its type, the code means to raise an error that asks for the working dimension,
but an assertion fails instead, whatever the data and the other names. -/
theorem C179_no_dim_violated (d0 : Option Str) (name : Option Str) (named : Bool) (hdims : cout.self.dims.length ≠ 1)
    (hok : ∀ d ∈ cout.self.dims, ∃ t, getDimType sg types d (some cout) = .ok t)
    (hno : ∀ a, AxisOf cout.self (some a) → ∀ d ∈ cout.self.dims, ¬ HasType sg types cout d a) :
    regridNames sg types da cout (d0, none) name named = .error .assertionError := by
  have hloop : ∀ (ds : List Str) (last : Option (Option Str)), (∀ d ∈ ds, d ∈ cout.self.dims) →
      ∃ last', searchDimLoop0 sg types cout (getAxisL cout.self) none ds last = .ok (.inr last') := by
    intro ds
    induction ds with
    | nil => intro last _; exact ⟨last, rfl⟩
    | cons d ds ih =>
      intro last hin
      unfold searchDimLoop0
      have hs : locSkip sg none d = false := rfl
      rw [hs, if_neg (by simp)]
      obtain ⟨t, ht⟩ := hok d (hin d (by simp))
      rw [ht]
      dsimp only [Except.bind]
      cases ha : getAxisL cout.self with
      | none =>
        dsimp only
        rw [ha] at ih
        exact ih _ fun x hx => hin x (by simp [hx])
      | some a =>
        dsimp only
        rw [ha] at ih
        rw [if_neg]
        · exact ih _ fun x hx => hin x (by simp [hx])
        · rintro ⟨h1, h2⟩
          exact hno a ((axisOf_iff _ _).1 ha) d (hin d (by simp)) ⟨h1, by rw [ht, h2]⟩
  have hs : searchDim0 sg types cout none = .ok (none, none) := by
    unfold searchDim0
    obtain ⟨l, hl⟩ := hloop cout.self.dims none fun _ h => h
    rw [hl]
    dsimp only [Except.bind]
    split
    · next x hx => rw [hx] at hdims; simp at hdims
    · rfl
  unfold regridNames namesOut
  rw [hs]
  dsimp only [Except.mapError, Except.bind]
  cases d0 with
  | none => rfl
  | some d => rfl

/-- **C75 and C179 are violated**: when both dimensions and the name of the input coordinate are given, a variable is read before it is set, whatever the arrays. -/
theorem C75_names_violated (d0 d1 n : Str) (named : Bool) : regridNames sg types da cout (some d0, some d1) (some n) named = .error .unboundLocal := rfl

/-- **C75 is violated** also when only the name of the input coordinate is given and the output coordinate has no name: it is never accepted. -/
theorem C75_unnamed_violated (dim : Option Str × Option Str) (n : Str) (hn : n ≠ []) (r : Str × Str × Str) : regridNames sg types da cout dim (some n) false ≠ .ok r := by
  intro h
  unfold regridNames at h
  obtain ⟨out, ho, h⟩ := exc_bind_ok _ _ _ h
  obtain ⟨od0, hi, h⟩ := exc_bind_ok _ _ _ h
  cases od0 with
  | none => simp at h
  | some e0 =>
  cases h1 : out.1 with
  | none => rw [h1] at h; simp at h
  | some e1 =>
  rw [h1] at h
  dsimp only [Option.elim] at h
  split at h
  · simp at h
  · obtain ⟨n', hn', h⟩ := exc_map_ok _ _ _ h
    unfold namesCoord at hn'
    simp only [Option.getD_some] at hn'
    rw [if_neg hn] at hn'
    split at hn'
    · simp at hn'
    · simp at hn'

/-- **C75** (dimensions given): the given working dimensions are accepted when the arrays have them, the specifications answer about the output one, and an input coordinate is found along the input one. -/
theorem C75_dims_partial (d0 d1 n : Str) (c : AxArr) (named : Bool) (t : Option Str) (h0 : d0 ∈ da.self.dims) (h1 : d1 ∈ cout.self.dims)
    (ht : getDimType sg types d1 (some cout) = .ok t) (hc : searchFromDim sg types da d0 = .ok (some (n, c))) :
    regridNames sg types da cout (some d0, some d1) none named = .ok (d0, d1, n) := by
  unfold regridNames namesOut
  simp only [Option.isNone_some, Option.isNone_none, Bool.or_true, if_true]
  rw [ht]
  dsimp only [Except.mapError, Except.map, Except.bind, namesIn, Option.elim]
  rw [if_neg (by simp [h0, h1])]
  unfold namesCoord
  simp only [Option.getD_none, if_true]
  rw [hc]
  rfl

/-- **C75** (coordinate given): the given name is accepted when the data have this coordinate, the output coordinate has a name, and the working dimensions are inferred: those that
are used are the same as when the name is not given. -/
theorem C75_coord_partial (d0 d1 m n : Str) (b : Bool) (hn : n ≠ []) (hc : n ∈ da.coords.map (·.1))
    (h : regridNames sg types da cout (none, none) none b = .ok (d0, d1, m)) : regridNames sg types da cout (none, none) (some n) true = .ok (d0, d1, n) := by
  unfold regridNames at h ⊢
  obtain ⟨out, ho, h⟩ := exc_bind_ok _ _ _ h
  obtain ⟨od0, hi, h⟩ := exc_bind_ok _ _ _ h
  have ho' : namesOut sg types cout ((none : Option Str).isNone || (none : Option Str).isNone || (some n).isNone) none = .ok out := ho
  rw [ho']
  dsimp only [Except.bind]
  rw [hi]
  dsimp only
  cases od0 with
  | none => simp at h
  | some e0 =>
  cases h1 : out.1 with
  | none => rw [h1] at h; simp at h
  | some e1 =>
  rw [h1] at h
  dsimp only [Option.elim] at h ⊢
  split at h
  · simp at h
  next hd =>
    obtain ⟨n', hn', h⟩ := exc_map_ok _ _ _ h
    simp only [Prod.mk.injEq] at h
    rw [if_neg hd]
    unfold namesCoord
    simp only [Option.getD_some]
    rw [if_neg hn, if_neg (by simpa using hc)]
    simp only [Except.map, if_true, h.1, h.2.1]

/-! ### with the built-in specifications -/

/-- the name of the dimension tells its type: it is one of the names that `cf.cfg` gives for this type, in any case and with or without a location -/
def DimTold (d t : Str) : Prop := ∃ l n, (t, l) ∈ loadedDims ∧ n ∈ l ∧ NameText n d ∧ lower d ∉ cutDims

theorem DimTold.type {d t : Str} (h : DimTold d t) (a : Option DArr) : getDimType {} loadedDims d a = .ok (some t) := by
  obtain ⟨l, n, h1, h2, h3, h4⟩ := h
  exact C176_known_dims_partial t l h1 n h2 d h3 h4 a

theorem dimTypes_ok : (builtinDims.all fun p => lower p.1 == p.1 && !p.1.isEmpty) = true := by decide +kernel

theorem DimTold.ne {d t : Str} (h : DimTold d t) : lower t = t ∧ t ≠ [] := by
  obtain ⟨l, n, h1, _⟩ := h
  rw [loadedDims_eq] at h1
  have := List.all_eq_true.1 dimTypes_ok _ h1
  simp only [Bool.and_eq_true, beq_iff_eq, Bool.not_eq_true', List.isEmpty_eq_false_iff] at this
  exact this

/-- the name of the dimension tells nothing, but the coordinate of this name does: it is 1-D along the dimension, and its attribute `axis`, or the axis of the CF coordinate that it matches, is `t` in any case -/
def AxisTold (coords : List (Str × AxArr)) (d t : Str) : Prop :=
  (parseAttr {} .name d).1 = d ∧ (∀ p ∈ loadedDims, lower d ∉ p.2) ∧ t ≠ [] ∧ ∃ c, lookupS d coords = some c ∧ c.dims = [d] ∧ AxisOf c (some t)

/-- the type of a dimension of an array is told by its name or by its coordinate -/
def DTold (a : DArr) (d t : Str) : Prop := DimTold d t ∨ AxisTold a.coords d t

/-- the type of the dimension of the output coordinate is told by its name, by its coordinate, or by the output coordinate itself -/
def DToldOut (a : DArr) (d t : Str) : Prop :=
  DTold a d t ∨ ((parseAttr {} .name d).1 = d ∧ (∀ p ∈ loadedDims, lower d ∉ p.2) ∧ t ≠ [] ∧ lookupS d a.coords = none ∧ AxisOf a.self (some t))

theorem axisOf_lower {a : AxArr} {t : Str} (h : AxisOf a (some t)) : lower t = t := by
  cases h <;> simp

theorem unknown_find {d : Str} (h : ∀ p ∈ loadedDims, lower d ∉ p.2) : loadedDims.find? (fun p => decide (lower d ∈ p.2)) = none := by
  rw [List.find?_eq_none]
  intro p hp
  simpa using h p hp

theorem AxisTold.type {a : DArr} {d t : Str} (h : AxisTold a.coords d t) (hd : d ∈ a.self.dims) : getDimType {} loadedDims d (some a) = .ok (some t) := by
  obtain ⟨h1, h2, h3, c, h4, h5, h6⟩ := h
  unfold getDimType
  dsimp only
  rw [h1, unknown_find h2]
  dsimp only
  rw [if_neg (by simp [hd]), h4]
  dsimp only
  rw [(axisOf_iff c _).2 h6]

theorem DTold.type {a : DArr} {d t : Str} (h : DTold a d t) (hd : d ∈ a.self.dims) : getDimType {} loadedDims d (some a) = .ok (some t) :=
  h.elim (fun h => h.type _) (fun h => h.type hd)

theorem DTold.ne {a : DArr} {d t : Str} (h : DTold a d t) : lower t = t ∧ t ≠ [] := by
  rcases h with h | ⟨_, _, h3, c, _, _, h6⟩
  · exact h.ne
  · exact ⟨axisOf_lower h6, h3⟩

theorem DToldOut.type {a : DArr} {d t : Str} (h : DToldOut a d t) (hd : d ∈ a.self.dims) : getDimType {} loadedDims d (some a) = .ok (some t) := by
  rcases h with h | ⟨h1, h2, h3, h4, h5⟩
  · exact h.type hd
  · unfold getDimType
    dsimp only
    rw [h1, unknown_find h2]
    dsimp only
    rw [if_neg (by simp [hd]), h4]
    dsimp only
    rw [(axisOf_iff _ _).2 h5]
    dsimp only
    rw [if_neg h3]

theorem DToldOut.ne {a : DArr} {d t : Str} (h : DToldOut a d t) : lower t = t ∧ t ≠ [] := by
  rcases h with h | ⟨_, _, h3, _, h6⟩
  · exact h.ne
  · exact ⟨axisOf_lower h6, h3⟩

/-- a coordinate of the array still knows the types of its own dimensions -/
theorem DTold.sub {a : DArr} {d t : Str} (h : DTold a d t) (c : AxArr) (hd : d ∈ c.dims) : DTold (a.sub c) d t := by
  rcases h with h | ⟨h1, h2, h3, x, h4, h5, h6⟩
  · exact Or.inl h
  · refine Or.inr ⟨h1, h2, h3, x, ?_, h5, h6⟩
    show lookupS d (a.coords.filter fun p => p.2.dims.all fun d => decide (d ∈ c.dims)) = some x
    have : ∀ l : List (Str × AxArr), lookupS d l = some x → lookupS d (l.filter fun p => p.2.dims.all fun d => decide (d ∈ c.dims)) = some x := by
      intro l
      induction l with
      | nil => intro h; exact h
      | cons p l ih =>
        intro h
        rw [List.filter_cons]
        unfold lookupS at h
        split at h
        · next hp =>
          have hx : p.2 = x := by simpa using h
          rw [if_pos (by rw [hx, h5]; simpa using hd)]
          unfold lookupS
          rw [if_pos hp]; exact h
        · next hp =>
          split
          · unfold lookupS
            rw [if_neg hp]; exact ih h
          · exact ih h
    exact this _ h4

theorem told_searchDim (a : DArr) (t d0 : Str) (h0 : d0 ∈ a.self.dims → DTold a d0 t) (hlow : lower t = t) (hne : t ≠ [])
    (h : ∀ d ∈ a.self.dims, ∃ t', DTold a d t' ∧ (t' = t → d = d0)) :
    searchDim {} loadedDims a t none = .ok (if d0 ∈ a.self.dims then some d0 else none) := by
  unfold searchDim
  rw [hlow]
  have go : ∀ ds : List Str, (∀ d ∈ ds, d ∈ a.self.dims) →
      searchDimLoop {} loadedDims a t none ds = .ok (if d0 ∈ ds then some d0 else none) := by
    intro ds
    induction ds with
    | nil => intro _; rfl
    | cons d ds ih =>
      intro hin
      have hda := hin d (by simp)
      unfold searchDimLoop
      have hs : locSkip {} none d = false := rfl
      rw [hs, if_neg (by simp)]
      obtain ⟨t', ht', he⟩ := h d hda
      rw [ht'.type hda]
      dsimp only [Except.bind]
      by_cases hd : d = d0
      · subst hd
        have : t' = t := by
          have := (ht'.type hda).symm.trans ((h0 hda).type hda)
          simpa using this
        rw [if_pos ⟨by rw [this], hne⟩, if_pos (by simp)]
      · rw [if_neg]
        · rw [ih fun x hx => hin x (by simp [hx])]
          have : d0 ∈ d :: ds ↔ d0 ∈ ds := by
            rw [List.mem_cons]
            exact ⟨fun h => h.resolve_left (Ne.symm hd), Or.inr⟩
          simp only [this]
        · rintro ⟨h1, _⟩
          exact hd (he (by simpa using h1))
  exact go _ (fun _ h => h)

/-- **C179** (usual case): with the built-in specifications, when the types of the dimensions of the data are told by their names, or by the axis of the coordinate of the same name when the name tells nothing, `d0` is the only one of them with the
type of the only dimension of the output coordinate, told in the same way or by the axis of this coordinate, and the only coordinate of the data along `d0` is the one named `d0`, `regrid1d` without any given name works along `d0` and with this
coordinate, whatever the other dimensions and coordinates are. -/
theorem C179_usual_partial (t d0 d1 : Str) (c0 : AxArr) (hout : cout.self.dims = [d1]) (h1 : DToldOut cout d1 t) (h0 : DTold da d0 t) (hne : d0 ≠ [])
    (hd0 : d0 ∈ da.self.dims) (hdims : ∀ d ∈ da.self.dims, ∃ t', DTold da d t' ∧ (t' = t → d = d0))
    (hco : ∀ p ∈ da.coords, ∀ d ∈ p.2.dims, d ∈ da.self.dims) (hc : lookupS d0 da.coords = some c0) (hc0 : d0 ∈ c0.dims)
    (honly : ∀ p ∈ da.coords, d0 ∈ p.2.dims → p.1 = d0) (named : Bool) :
    regridNames {} loadedDims da cout (none, none) none named = .ok (d0, d1, d0) := by
  have hs : searchDim0 {} loadedDims cout none = .ok (some d1, some t) := by
    unfold searchDim0
    rw [hout]
    unfold searchDimLoop0
    have hs : locSkip {} none d1 = false := rfl
    rw [hs, if_neg (by simp), h1.type (by rw [hout]; simp)]
    dsimp only [Except.bind]
    cases ha : getAxisL cout.self with
    | none => rfl
    | some a =>
      dsimp only
      by_cases hh : a ≠ [] ∧ some t = some a
      · rw [if_pos hh]
        simp only [Option.some.injEq] at hh
        rw [hh.2]
      · rw [if_neg hh]
        rfl
  have hl : ∀ cs : List (Str × AxArr), (∀ p ∈ cs, p ∈ da.coords) → (∃ p ∈ cs, d0 ∈ p.2.dims) → namesInLoop {} loadedDims da t cs = .ok d0 := by
    intro cs
    induction cs with
    | nil => rintro _ ⟨p, hp, _⟩; cases hp
    | cons c cs ih =>
      intro hin hex
      unfold namesInLoop
      rw [told_searchDim (da.sub c.2) t d0 (fun h => h0.sub c.2 h) h1.ne.1 h1.ne.2 fun d hd => by
        obtain ⟨t', h2, h3⟩ := hdims d (hco c (hin c (by simp)) d hd)
        exact ⟨t', h2.sub c.2 hd, h3⟩]
      dsimp only [Except.mapError, Except.bind]
      by_cases hm : d0 ∈ (da.sub c.2).self.dims
      · rw [if_pos hm]
        simp only [Option.getD_some]
        rw [if_neg hne]
      · rw [if_neg hm]
        simp only [Option.getD_none, if_true]
        refine ih (fun p hp => hin p (by simp [hp])) ?_
        obtain ⟨p, hp, h2⟩ := hex
        rcases List.mem_cons.1 hp with rfl | hp
        · exact absurd h2 hm
        · exact ⟨p, hp, h2⟩
  have hin := hl da.coords (fun _ h => h) ⟨(d0, c0), mem_of_lookupS _ _ _ hc, hc0⟩
  have hfrom : searchFromDim {} loadedDims da d0 = .ok (some (d0, c0)) := by
    unfold searchFromDim
    rw [if_neg (by simp [hd0])]
    simp only [hc]
    rw [if_pos]
    rw [List.all_eq_true]
    intro p hp
    rw [decide_eq_true_eq]
    by_cases hm : d0 ∈ p.2.dims
    · exact Or.inl (honly p hp hm)
    · exact Or.inr hm
  have hb : d0 ∈ da.self.dims ∧ d1 ∈ cout.self.dims := ⟨hd0, by rw [hout]; simp⟩
  unfold regridNames namesOut
  rw [hs]
  dsimp only [Except.mapError, Except.bind]
  unfold namesIn
  dsimp only
  simp only [Option.getD_some]
  rw [if_neg h1.ne.2, hin]
  dsimp only [Except.map, Option.elim]
  rw [if_neg (by simp [hb.1, hb.2])]
  unfold namesCoord
  simp only [Option.getD_none, if_true]
  rw [hfrom]
  rfl

theorem toldBy (t d : String) (h : (builtinDims.any fun p => p.1 == t.toList && p.2.contains d.toList && !cutDims.contains (lower d.toList) && lower d.toList == d.toList) = true) :
    DimTold d.toList t.toList := by
  obtain ⟨p, hp, h⟩ := List.any_eq_true.1 h
  simp only [Bool.and_eq_true, beq_iff_eq, Bool.not_eq_true', List.contains_iff_mem] at h
  obtain ⟨⟨⟨h1, h2⟩, h3⟩, h4⟩ := h
  refine ⟨p.2, d.toList, ?_, h2, Or.inl h4, ?_⟩
  · rw [loadedDims_eq, ← h1]
    exact hp
  · intro h
    rw [List.contains_iff_mem.2 h] at h3
    cases h3

/-- a case: an array along `time`, `depth` and `lon` with its three coordinates, put on a coordinate along `level` -/
example : ∃ (t : Str) (da cout : DArr), DimTold "level".toList t ∧ DimTold "depth".toList t ∧
    regridNames {} loadedDims da cout (none, none) none true = .ok ("depth".toList, "level".toList, "depth".toList) := by
  refine ⟨"z".toList, ⟨⟨["time".toList, "depth".toList, "lon".toList], none, none⟩,
    [("time".toList, ⟨["time".toList], none, none⟩), ("lon".toList, ⟨["lon".toList], none, none⟩), ("depth".toList, ⟨["depth".toList], none, none⟩)]⟩,
    ⟨⟨["level".toList], none, none⟩, []⟩, ?_, ?_, ?_⟩
  · exact toldBy "z" "level" (by decide +kernel)
  · exact toldBy "z" "depth" (by decide +kernel)
  · rw [loadedDims_eq]
    decide +kernel

/-- a case of the violation: an output coordinate along `time` and `depth` without axis, that no specification knows -/
example : let cout : DArr := ⟨⟨["time".toList, "depth".toList], none, none⟩, []⟩
    cout.self.dims.length ≠ 1 ∧ (∀ d ∈ cout.self.dims, ∃ t, getDimType {} loadedDims d (some cout) = .ok t) ∧
    (∀ a, AxisOf cout.self (some a) → ∀ d ∈ cout.self.dims, ¬ HasType {} loadedDims cout d a) := by
  refine ⟨by decide, ?_, ?_⟩
  · intro d hd
    rcases List.mem_cons.1 hd with rfl | hd
    · exact ⟨_, (toldBy "t" "time" (by decide +kernel)).type _⟩
    · rw [List.mem_singleton.1 hd]
      exact ⟨_, (toldBy "z" "depth" (by decide +kernel)).type _⟩
  · intro a ha
    cases ha with
    | attr x h => cases h
    | cf x h h' => cases h'

end Xoa
