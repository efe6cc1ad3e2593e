import Verif.XyDims
import Verif.CfDimsProps
import Verif.ErodeTurnProps

namespace Xoa

variable (sg : SG) (types : CfDims)

/-! ## C166: the horizontal dimensions of `erode_mask` -/

/-- `da` is what the search of the dimensions sees of `data` -/
def SameDims (data : LArr V) (da : DArr) : Prop := da.self.dims = data.dims.map String.toList

/-- what `erode_mask` must give with the horizontal dimensions `ydim` and `xdim`: valid data are kept, and one turn gives to each missing point the mean of the
valid data next to it along these dimensions -/
def ErodedAlong (data : LArr V) (ydim xdim : String) (n : Int) (r : LArr V) : Prop :=
  r.dims = data.dims ∧ r.shape = data.shape ∧ (∀ p v, data.val p = some v → r.val p = some v) ∧
  (n = 1 → ∀ P : String → Nat, (∀ d ∈ data.dims, P d < data.size d) → data.at P = none → r.at P = plainMean (validAround data ydim xdim P))

theorem eroded_along (data : LArr V) (hd : data.Ok) (ydim xdim : String) (hne : ydim ≠ xdim) (hy : ydim ∈ data.dims) (hx : xdim ∈ data.dims) (n : Int) :
    ∃ r, erodeMaskN data n (.da (shapiroKernel [ydim, xdim])) = .ok r ∧ ErodedAlong data ydim xdim n r := by
  obtain ⟨r, h1, h2, h3, h4, -⟩ := C25_default data hd ydim xdim hne hy hx n
  refine ⟨r, h1, h2, h3, h4, ?_⟩
  rintro rfl P hP h0
  obtain ⟨r', g1, -, -, g4⟩ := C25_default_turn data hd ydim xdim hne hy hx
  rw [h1] at g1
  injection g1 with g1
  subst g1
  exact (g4 P hP).2 h0

theorem searchLoop_unknown (da : DArr) (t : Str) (dims : List Str) (h : ∀ d ∈ dims, getDimType sg types d (some da) = .ok none) :
    searchDimLoop sg types da t none dims = .ok none := by
  induction dims with
  | nil => rfl
  | cons d ds ih =>
    unfold searchDimLoop
    rw [show locSkip sg none d = false from rfl, h d (by simp)]
    simp only [Bool.false_eq_true, if_false, Except.bind, reduceCtorEq, false_and]
    exact ih (fun x hx => h x (by simp [hx]))

theorem xyFound_unknown (da : DArr) (t : Char) (ht : t = 'x' ∨ t = 'y') (pre : List Str) (y x : Str) (hdims : da.self.dims = pre ++ [y, x])
    (h : searchDim sg types da [t] none = .ok none) : xyFound sg types da [t] = .ok (some (if t = 'x' then x else y)) := by
  have hl : ¬ (EMode.raise = EMode.raise ∧ [[t]].length > da.self.dims.length) := by rw [hdims]; simp
  unfold xyFound getDims
  rw [if_neg hl]
  simp only [scanTypes, h, Except.bind, setS]
  have hr : da.self.dims.reverse = x :: y :: pre.reverse := by rw [hdims]; simp
  rcases ht with rfl | rfl <;> simp [guessLoop, hr, setS]

theorem xyFound_known (da : DArr) (t d : Str) (h : searchDim sg types da t none = .ok (some d)) (hn : da.self.dims ≠ []) : xyFound sg types da t = .ok (some d) := by
  have hl : ¬ (EMode.raise = EMode.raise ∧ [t].length > da.self.dims.length) := by
    have := List.length_pos_iff.2 hn
    simp only [List.length_singleton, true_and]; omega
  have hg : ∀ (cs : List Char) (i : Nat) (acc : List (Str × Option Str)), guessLoop da.self.dims [] cs i acc = .ok acc := by
    intro cs
    induction cs with
    | nil => intro i acc; rfl
    | cons c cs ih => intro i acc; unfold guessLoop; rw [if_neg (by simp)]; exact ih _ _
  unfold xyFound getDims
  rw [if_neg hl]
  simp [scanTypes, h, Except.bind, setS, hg]

/-- the kernel of `erode_mask` for two dimensions -/
theorem defaultKernel_eq (x y : String) : defaultKernel (some x.toList, some y.toList) = .da (shapiroKernel [y, x]) := by
  simp [defaultKernel, String.ofList_toList]

theorem erodeAuto_of (data : LArr V) (da : DArr) (hlen : 2 ≤ data.dims.length) (xdim ydim : Option Str) (x y : String)
    (h : getXY sg types da xdim ydim = .ok (some x.toList, some y.toList)) (n : Int) :
    erodeAutoN sg types data da n xdim ydim = (erodeMaskN data n (.da (shapiroKernel [y, x]))).mapError .filt := by
  unfold erodeAutoN
  rw [if_neg (by omega), h]
  show (erodeMaskN data n (defaultKernel (some x.toList, some y.toList))).mapError _ = _
  rw [defaultKernel_eq]

theorem two_mem_length (l : List String) (a b : String) (h : a ≠ b) (ha : a ∈ l) (hb : b ∈ l) : 2 ≤ l.length := by
  have : [a, b].Subperm l := List.subperm_of_subset (by simp [h]) (by intro d hd; simp at hd; rcases hd with rfl | rfl <;> assumption)
  exact this.length_le

/-- **C166 (unknown dimensions).** When no dimension has a known type, `erode_mask` works along the last two dimensions: the last one is x, the one before is y. -/
theorem C166_unknown_dims (data : LArr V) (hd : data.Ok) (da : DArr) (hs : SameDims data da) (pre : List String) (y x : String)
    (hdims : data.dims = pre ++ [y, x]) (hu : ∀ d ∈ da.self.dims, getDimType sg types d (some da) = .ok none) (n : Int) :
    ∃ r, erodeAutoN sg types data da n none none = .ok r ∧ ErodedAlong data y x n r := by
  have hn := hd.nodup
  rw [hdims] at hn
  have hne : y ≠ x := by
    have := (List.nodup_append.1 hn).2.1
    simpa using this
  obtain ⟨r, h1, h2⟩ := eroded_along data hd y x hne (by rw [hdims]; simp) (by rw [hdims]; simp) n
  refine ⟨r, ?_, h2⟩
  have hdims' : da.self.dims = pre.map String.toList ++ [y.toList, x.toList] := by rw [hs, hdims]; simp
  have e : getXY sg types da none none = .ok (some x.toList, some y.toList) := by
    unfold getXY xyOne
    have hx := xyFound_unknown sg types da 'x' (.inl rfl) _ _ _ hdims' (searchLoop_unknown sg types da _ _ hu)
    have hy := xyFound_unknown sg types da 'y' (.inr rfl) _ _ _ hdims' (searchLoop_unknown sg types da _ _ hu)
    simp only [hx, hy, Except.bind]
    rfl
  rw [erodeAuto_of sg types data da (by rw [hdims]; simp) none none x y e n, h1]
  rfl

/-- **C166 (known dimensions).** When a dimension has the type x and another one the type y, wherever they are, `erode_mask` works along the first ones with
these types. -/
theorem C166_known_dims (data : LArr V) (hd : data.Ok) (da : DArr) (hs : SameDims data da) (y x : String)
    (hx : searchDim sg types da ['x'] none = .ok (some x.toList)) (hy : searchDim sg types da ['y'] none = .ok (some y.toList)) (n : Int) :
    HasType sg types da x.toList ['x'] ∧ HasType sg types da y.toList ['y'] ∧
    ∃ r, erodeAutoN sg types data da n none none = .ok r ∧ ErodedAlong data y x n r := by
  obtain ⟨p1, q1, e1, t1, -⟩ := (C47_search_dim sg types da ['x'] none).1 _ hx
  obtain ⟨p2, q2, e2, t2, -⟩ := (C47_search_dim sg types da ['y'] none).1 _ hy
  have l1 : lower ['x'] = ['x'] := by decide
  have l2 : lower ['y'] = ['y'] := by decide
  rw [l1] at t1
  rw [l2] at t2
  refine ⟨t1, t2, ?_⟩
  have hne : y ≠ x := by
    rintro rfl
    have := t1.unique t2
    exact absurd this (by decide)
  have mem : ∀ s : String, s.toList ∈ da.self.dims → s ∈ data.dims := by
    intro s h
    rw [hs] at h
    obtain ⟨s', h1, h2⟩ := List.mem_map.1 h
    have : s' = s := by rw [← String.ofList_toList (s := s'), h2, String.ofList_toList]
    exact this ▸ h1
  have hxm := mem x (by rw [e1]; simp)
  have hym := mem y (by rw [e2]; simp)
  obtain ⟨r, h1, h2⟩ := eroded_along data hd y x hne hym hxm n
  refine ⟨r, ?_, h2⟩
  have hnil : da.self.dims ≠ [] := by rw [e1]; simp
  have e : getXY sg types da none none = .ok (some x.toList, some y.toList) := by
    unfold getXY xyOne
    simp only [xyFound_known sg types da _ _ hx hnil, xyFound_known sg types da _ _ hy hnil, Except.bind]
  rw [erodeAuto_of sg types data da (two_mem_length _ _ _ hne hym hxm) none none x y e n, h1]
  rfl

/-- **C166 (given dimensions).** Dimensions given by the user are used, whatever their types. -/
theorem C166_given_dims (data : LArr V) (hd : data.Ok) (da : DArr) (y x : String) (hne : y ≠ x) (hy : y ∈ data.dims) (hx : x ∈ data.dims) (n : Int) :
    ∃ r, erodeAutoN sg types data da n (some x.toList) (some y.toList) = .ok r ∧ ErodedAlong data y x n r := by
  obtain ⟨r, h1, h2⟩ := eroded_along data hd y x hne hy hx n
  refine ⟨r, ?_, h2⟩
  rw [erodeAuto_of sg types data da (two_mem_length _ _ _ hne hy hx) _ _ x y rfl n, h1]
  rfl

/-- **C166, what the code does instead.** When the x dimension is the one before the last, and no dimension has the type y, the same dimension is used
for x and for y. -/
theorem C166_same_dim_violated (da : DArr) (pre : List Str) (a b : Str) (hdims : da.self.dims = pre ++ [a, b])
    (hx : searchDim sg types da ['x'] none = .ok (some a)) (hy : searchDim sg types da ['y'] none = .ok none) :
    getXY sg types da none none = .ok (some a, some a) := by
  have hnil : da.self.dims ≠ [] := by rw [hdims]; simp
  unfold getXY xyOne
  simp only [xyFound_known sg types da _ _ hx hnil, xyFound_unknown sg types da 'y' (.inr rfl) _ _ _ hdims hy, Except.bind]
  rfl

/-- **C166, what the code does instead (one dimension given).** The dimension given for x may be found again for y, although another one is free. -/
theorem C166_given_same_violated (da : DArr) (pre : List Str) (a b : Str) (hdims : da.self.dims = pre ++ [a, b])
    (hu : ∀ d ∈ da.self.dims, getDimType sg types d (some da) = .ok none) :
    getXY sg types da (some a) none = .ok (some a, some a) := by
  unfold getXY xyOne
  simp only [xyFound_unknown sg types da 'y' (.inr rfl) _ _ _ hdims (searchLoop_unknown sg types da _ _ hu), Except.bind]
  rfl

/-- **C166 (masks).** A plain two-dimensional mask has the dimensions `(ydim, xdim)`: eroding down to it is eroding down to the mask with these dimensions. -/
theorem C166_plain_mask (data : LArr V) (hd : data.Ok) (da : DArr) (hs : SameDims data da) (pre : List String) (y x : String)
    (hdims : data.dims = pre ++ [y, x]) (hu : ∀ d ∈ da.self.dims, getDimType sg types d (some da) = .ok none) (m : PlainMask)
    (hm : m.shape = [data.size y, data.size x])
    (hv : ∀ P : String → Nat, (∀ d ∈ data.dims, P d < data.size d) → m.val [P y, P x] = false →
      ∃ Q : String → Nat, (∀ d ∈ data.dims, Q d < data.size d) ∧ (∀ d, d ≠ y → d ≠ x → Q d = P d) ∧ ∃ v, data.at Q = some v) :
    ∃ N, ∀ fuel, N ≤ fuel → ∃ r, erodeAutoMask sg types data da m none none fuel = some (.ok r) ∧ r.dims = data.dims ∧ r.shape = data.shape ∧
      ∀ P : String → Nat, (∀ d ∈ data.dims, P d < data.size d) → m.val [P y, P x] = false → ∃ v, r.at P = some v := by
  have hn := hd.nodup
  rw [hdims] at hn
  have hne : y ≠ x := by
    have := (List.nodup_append.1 hn).2.1
    simpa using this
  have hdims' : da.self.dims = pre.map String.toList ++ [y.toList, x.toList] := by rw [hs, hdims]; simp
  have e : getXY sg types da none none = .ok (some x.toList, some y.toList) := by
    unfold getXY xyOne
    have hx := xyFound_unknown sg types da 'x' (.inl rfl) _ _ _ hdims' (searchLoop_unknown sg types da _ _ hu)
    have hy := xyFound_unknown sg types da 'y' (.inr rfl) _ _ _ hdims' (searchLoop_unknown sg types da _ _ hu)
    simp only [hx, hy, Except.bind]
    rfl
  have hname : m.named (some x.toList, some y.toList) = ⟨[y, x], m.shape, m.val⟩ := by simp [PlainMask.named, String.ofList_toList]
  obtain ⟨N, hN⟩ := C26_default_terminates data hd y x hne (by rw [hdims]; simp) (by rw [hdims]; simp) ⟨[y, x], m.shape, m.val⟩
    ⟨by simpa using hne, by simp [hm]⟩ (by intro d; simp) (by
      intro d hdm
      simp only [List.mem_cons, List.not_mem_nil, or_false] at hdm
      rcases hdm with rfl | rfl
      · simp [LArr.size, look, hm]
      · simp [LArr.size, look, hm, hne.symm]) (by
      intro P hP h0
      exact hv P hP h0)
  refine ⟨N, fun fuel hf => ?_⟩
  obtain ⟨r, h1, h2, h3, h4⟩ := hN fuel hf
  refine ⟨r, ?_, h2, h3, fun P hP h0 => h4 P hP h0⟩
  unfold erodeAutoMask
  rw [if_neg (by rw [hdims]; simp), e]
  show (if 2 < m.shape.length then _ else if m.shape.length ≠ 2 then _ else (erodeMaskUntil data (m.named (some x.toList, some y.toList)) (defaultKernel (some x.toList, some y.toList)) fuel).map _) = _
  rw [if_neg (by simp [hm]), if_neg (by simp [hm]), hname, defaultKernel_eq, h1]
  rfl

/-! ## C167: the property `dim` of the accessors -/

theorem loop0_ok (da : DArr) (axis : Option Str) (dims : List Str) (last : Option (Option Str)) (e : DErr)
    (h : searchDimLoop0 sg types da axis none dims last = .error e) : e = .notADim := by
  induction dims generalizing last with
  | nil => simp [searchDimLoop0] at h
  | cons d ds ih =>
    unfold searchDimLoop0 at h
    rw [show locSkip sg none d = false from rfl] at h
    simp only [Bool.false_eq_true, if_false] at h
    cases hg : getDimType sg types d (some da) with
    | error e' =>
      rw [hg] at h
      simp only [Except.bind] at h
      injection h with h
      rw [← h]
      unfold getDimType at hg
      dsimp only at hg
      split at hg
      · simp at hg
      · split at hg
        · injection hg with hg; exact hg.symm
        · split at hg
          · simp at hg
          · split at hg <;> simp at hg
    | ok t =>
      rw [hg] at h
      simp only [Except.bind] at h
      split at h
      · split at h
        · simp at h
        · exact ih _ h
      · exact ih _ h

/-- **C166 (one dimension).** Data with less than two dimensions are refused, whatever is known of their dimensions. -/
theorem C166_one_dim_refused (data : LArr V) (da : DArr) (h : data.dims.length < 2) (n : Int) (m : PlainMask) (xdim ydim : Option Str) (fuel : Nat) :
    erodeAutoN sg types data da n xdim ydim = .error (.filt .xoaError) ∧ erodeAutoMask sg types data da m xdim ydim fuel = some (.error (.filt .xoaError)) := by
  unfold erodeAutoN erodeAutoMask
  rw [if_pos h, if_pos h]
  exact ⟨rfl, rfl⟩

/-- **C166 (masks).** A plain mask that is not two-dimensional is refused. -/
theorem C166_plain_mask_refused (data : LArr V) (da : DArr) (m : PlainMask) (xdim ydim : Option Str) (fuel : Nat) (h : m.shape.length ≠ 2) :
    ∃ e, erodeAutoMask sg types data da m xdim ydim fuel = some (.error e) := by
  unfold erodeAutoMask
  split
  · exact ⟨_, rfl⟩
  · split
    · exact ⟨_, rfl⟩
    · split
      · exact ⟨_, rfl⟩
      · exact ⟨_, rfl⟩

theorem searchDim0_error (da : DArr) (e : DErr) (h : searchDim0 sg types da none = .error e) : e = .notADim := by
  unfold searchDim0 at h
  cases hl : searchDimLoop0 sg types da (getAxisL da.self) none da.self.dims none with
  | error e' =>
    rw [hl] at h
    simp only [Except.bind] at h
    injection h with h
    rw [← h]
    exact loop0_ok sg types da _ _ _ _ hl
  | ok r =>
    rw [hl] at h
    simp only [Except.bind] at h
    cases r with
    | inl p => simp at h
    | inr last =>
      simp only at h
      split at h
      · rename_i d hd
        rw [hd] at hl
        unfold searchDimLoop0 at hl
        rw [show locSkip sg none d = false from rfl] at hl
        simp only [Bool.false_eq_true, if_false] at hl
        cases hg : getDimType sg types d (some da) with
        | error e' => rw [hg] at hl; simp [Except.bind] at hl
        | ok t =>
          rw [hg] at hl
          simp only [Except.bind] at hl
          have : last = some t := by
            split at hl
            · split at hl
              · simp at hl
              · simp [searchDimLoop0] at hl; exact hl.symm
            · simp [searchDimLoop0] at hl; exact hl.symm
          rw [this] at h
          simp at h
      · simp at h

/-- **C167.** The property `dim` never raises an error; when it is not `None` it is a dimension of the array. -/
theorem C167_dim (da : DArr) : ∃ r, accDim sg types da = .ok r ∧ ∀ d, r = some d → d ∈ da.self.dims := by
  unfold accDim
  cases h : searchDim0 sg types da none with
  | error e =>
    rw [searchDim0_error sg types da e h]
    exact ⟨none, rfl, by simp⟩
  | ok r =>
    refine ⟨r.1, rfl, ?_⟩
    intro d hd
    obtain ⟨r1, r2⟩ := r
    simp only at hd
    subst hd
    exact (C64_dim_of_coord sg types da none d r2 h).1

/-- **C167 (one dimension).** For an array with one dimension, whose name without location is known or is the name of the dimension, it is this dimension. -/
theorem C167_single_partial (da : DArr) (d : Str) (hd : da.self.dims = [d]) (t : Option Str) (h : getDimType sg types d (some da) = .ok t) :
    accDim sg types da = .ok (some d) := by
  have hl : ∃ r, searchDim0 sg types da none = .ok (some d, r) := by
    unfold searchDim0
    rw [hd]
    unfold searchDimLoop0
    rw [show locSkip sg none d = false from rfl, h]
    simp only [Bool.false_eq_true, if_false, Except.bind]
    cases ha : getAxisL da.self with
    | none => exact ⟨_, rfl⟩
    | some a =>
      simp only
      by_cases hc : a ≠ [] ∧ t = some a
      · rw [if_pos hc]; exact ⟨_, rfl⟩
      · rw [if_neg hc]; exact ⟨_, rfl⟩
  obtain ⟨r, hr⟩ := hl
  unfold accDim
  rw [hr]

/-- **C167, what the code does instead.** A single dimension at a location, whose name without location is unknown, is not found. -/
theorem C167_single_violated (da : DArr) (d : Str) (hd : da.self.dims = [d]) (hr : (parseAttr sg .name d).1 ≠ d)
    (hk : ∀ p ∈ types, lower (parseAttr sg .name d).1 ∉ p.2) : accDim sg types da = .ok none := by
  have hg : getDimType sg types d (some da) = .error .notADim := by
    refine (C47_get_dim_type_error sg types da d _ _ rfl).2 ⟨hk, ?_⟩
    rw [hd]
    exact fun hm => hr (List.mem_singleton.1 hm)
  unfold accDim searchDim0
  rw [hd]
  unfold searchDimLoop0
  rw [show locSkip sg none d = false from rfl, hg]
  rfl

/-! ## examples -/

/-- `temp(time, lev, Y, xi_u)` of the examples of `get_dims` -/
def dataDims : LArr V := ⟨["time", "lev", "Y", "xi_u"], [2, 2, 3, 3], fun i => if i.getD 3 0 = 1 then none else some (i.getD 2 0)⟩

example : SameDims dataDims daDims := by unfold SameDims; decide +kernel
example : getXY sgDims typesDims daDims none none = .ok (some "xi_u".toList, some "Y".toList) := by decide +kernel
example : searchDim sgDims typesDims daDims ['x'] none = .ok (some "xi_u".toList) ∧ searchDim sgDims typesDims daDims ['y'] none = .ok (some "Y".toList) := by
  decide +kernel

/-- an array with unknown dimensions -/
def daUnknown : DArr := ⟨⟨["foo", "bar"].map String.toList, none, none⟩, []⟩
example : ∀ d ∈ daUnknown.self.dims, getDimType sgDims typesDims d (some daUnknown) = .ok none := by decide +kernel
example : getXY sgDims typesDims daUnknown none none = .ok (some "bar".toList, some "foo".toList) := by decide +kernel

/-- the same dimension twice: `temp(lon, foo)` -/
example : let da : DArr := ⟨⟨["lon", "foo"].map String.toList, none, none⟩, []⟩
    getXY sgDims typesDims da none none = .ok (some "lon".toList, some "lon".toList) ∧
    getXY sgDims typesDims daUnknown (some "foo".toList) none = .ok (some "foo".toList, some "foo".toList) := by decide +kernel

/-- one dimension: known, unknown, and unknown at a location -/
example : accDim sgDims typesDims ⟨⟨["xi_u".toList], none, none⟩, []⟩ = .ok (some "xi_u".toList) ∧
    accDim sgDims typesDims ⟨⟨["foo".toList], none, none⟩, []⟩ = .ok (some "foo".toList) ∧
    accDim sgDims typesDims ⟨⟨["foo_u".toList], none, none⟩, []⟩ = .ok none ∧
    accDim sgDims typesDims ⟨⟨["lat".toList, "lon".toList], some "X".toList, none⟩, []⟩ = .ok (some "lon".toList) := by decide +kernel

end Xoa
