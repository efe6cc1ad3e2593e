import Verif.RegridTop
import Verif.RegridNamesProps
import Verif.RegridEndProps

/-!
# `regrid1d` as users call it: `regrid1d(da, coord)`, with the built-in specifications (C181)
-/

namespace Xoa

/-- the name of the dimension tells nothing -/
def NameUntold (d : String) : Prop := (parseAttr {} .name d.toList).1 = d.toList ∧ ∀ p ∈ loadedDims, lower d.toList ∉ p.2

/-- the axis of an array: its attribute `axis` in lower case, or, when it has none, the axis of the CF coordinate that it matches -/
def XAxis (a : XArr) (t : String) : Prop :=
  (∃ x, a.axisAttr = some x ∧ lower x = t.toList) ∨ (a.axisAttr = none ∧ ∃ x, a.cfAxis = some x ∧ lower x = t.toList)

/-- the type of a dimension is told by its name, or, when the name tells nothing, by the axis of the coordinate of this name, that is 1-D along the dimension -/
def XTold (a : XData) (d t : String) : Prop :=
  DimTold d.toList t.toList ∨ (NameUntold d ∧ t ≠ "" ∧ ∃ c, lookupS d.toList a.coords = some c ∧ c.arr.dims = [d] ∧ XAxis c t)

/-- the type of the dimension of `coord`: the same, or, when it has no coordinate of this name, the axis of `coord` -/
def XToldOut (a : XData) (d t : String) : Prop :=
  XTold a d t ∨ (NameUntold d ∧ t ≠ "" ∧ lookupS d.toList a.coords = none ∧ XAxis a.self t)

/-- the usual call `regrid1d(da, coord)`: `coord` is 1-D along `d1`; the types of the dimensions of `da` are told by their names or by their coordinates, and
`d0` is the only one of the same type `t` as `d1`; the coordinate of `da` named `d0`, 1-D along `d0`, is the only one that has this dimension; `d1` is not another dimension of `da` -/
structure UsualRegrid (da cout : XData) (c0 : XArr) (t d0 d1 : String) : Prop where
  out1 : cout.self.arr.dims = [d1]
  told1 : XToldOut cout d1 t
  told0 : XTold da d0 t
  ne : d0 ≠ ""
  mem : d0 ∈ da.self.arr.dims
  others : ∀ d ∈ da.self.arr.dims, ∃ t', XTold da d t' ∧ (t' = t → d = d0)
  free : d1 ∈ da.self.arr.dims → d1 = d0
  inside : ∀ p ∈ da.coords, ∀ d ∈ p.2.arr.dims, d ∈ da.self.arr.dims
  coord : lookupS d0.toList da.coords = some c0
  cdims : c0.arr.dims = [d0]
  only : ∀ p ∈ da.coords, d0 ∈ p.2.arr.dims → p.1 = d0.toList
  okda : da.self.arr.Ok
  okc : c0.arr.Ok
  okout : cout.self.arr.Ok
  size : c0.arr.size d0 = da.self.arr.size d0
  full0 : 0 < da.self.arr.size d0
  full1 : 0 < cout.self.arr.size d1

theorem lookupS_mapSnd {α β : Type} (f : α → β) (k : Str) (l : List (Str × α)) : lookupS k (l.map fun p => (p.1, f p.2)) = (lookupS k l).map f := by
  induction l with
  | nil => rfl
  | cons p l ih =>
    simp only [List.map_cons, lookupS]
    split
    · rfl
    · exact ih

theorem toList_ne_nil {s : String} (h : s ≠ "") : s.toList ≠ [] := by
  intro e
  apply h
  rw [← String.ofList_toList (s := s), e]

theorem mem_toList {d : String} {l : List String} : d.toList ∈ l.map String.toList ↔ d ∈ l := by
  simp only [List.mem_map]
  constructor
  · rintro ⟨a, h, e⟩
    rwa [String.toList_inj.1 e] at h
  · exact fun h => ⟨d, h, rfl⟩

theorem XAxis.axisOf {a : XArr} {t : String} (h : XAxis a t) : AxisOf a.ax (some t.toList) := by
  rcases h with ⟨x, h1, h2⟩ | ⟨h1, x, h2, h3⟩
  · rw [← h2]; exact .attr x h1
  · rw [← h3]; exact .cf x h1 h2

theorem XTold.told {a : XData} {d t : String} (h : XTold a d t) : DTold a.names d.toList t.toList := by
  rcases h with h | ⟨⟨h1, h2⟩, h3, c, h4, h5, h6⟩
  · exact Or.inl h
  · refine Or.inr ⟨h1, h2, toList_ne_nil h3, c.ax, ?_, ?_, h6.axisOf⟩
    · show lookupS _ (a.coords.map _) = _
      rw [lookupS_mapSnd XArr.ax, h4]
      rfl
    · show c.arr.dims.map String.toList = _
      rw [h5]; rfl

theorem XToldOut.told {a : XData} {d t : String} (h : XToldOut a d t) : DToldOut a.names d.toList t.toList := by
  rcases h with h | ⟨⟨h1, h2⟩, h3, h4, h5⟩
  · exact Or.inl h.told
  · refine Or.inr ⟨h1, h2, toList_ne_nil h3, ?_, h5.axisOf⟩
    show lookupS _ (a.coords.map _) = _
    rw [lookupS_mapSnd XArr.ax, h4]
    rfl

/-- the names that the call infers -/
theorem usual_names {da cout : XData} {c0 : XArr} {t d0 d1 : String} (h : UsualRegrid da cout c0 t d0 d1) (named : Bool) :
    regridNames {} loadedDims da.names cout.names (none, none) none named = .ok (d0.toList, d1.toList, d0.toList) :=
  C179_usual_partial (da := da.names) (cout := cout.names) t.toList d0.toList d1.toList c0.ax
    (by show cout.self.arr.dims.map String.toList = _; rw [h.out1]; rfl) h.told1.told h.told0.told (toList_ne_nil h.ne)
    (mem_toList.2 h.mem)
    (by
      intro d hd
      obtain ⟨e, he, rfl⟩ := List.mem_map.1 hd
      obtain ⟨t', h1, h2⟩ := h.others e he
      exact ⟨t'.toList, h1.told, fun x => by rw [h2 (String.toList_inj.1 x)]⟩)
    (by
      intro p hp d hd
      obtain ⟨q, hq, rfl⟩ := List.mem_map.1 hp
      obtain ⟨e, he, rfl⟩ := List.mem_map.1 hd
      exact mem_toList.2 (h.inside q hq e he))
    (by
      show lookupS _ (da.coords.map _) = _
      rw [lookupS_mapSnd XArr.ax, h.coord]
      rfl)
    (by
      show _ ∈ c0.arr.dims.map String.toList
      rw [h.cdims]
      simp)
    (by
      intro p hp hd
      obtain ⟨q, hq, rfl⟩ := List.mem_map.1 hp
      exact h.only q hq (mem_toList.1 hd))
    named

/-- the call is the computation along `d0` and `d1` -/
theorem usual_top (o : RegridOpts) {da cout : XData} {c0 : XArr} {t d0 d1 : String} (h : UsualRegrid da cout c0 t d0 d1) (named : Bool) :
    regridTop o {} loadedDims da cout (none, none) none named = (regrid1d o da.self.arr c0.arr cout.self.arr d0 d1).mapError .calc := by
  unfold regridTop
  rw [usual_names h named]
  show regridChosen o da cout _ = _
  unfold regridChosen
  simp only [h.coord, Option.elim, String.ofList_toList]

theorem usual_flush {da cout : XData} {c0 : XArr} {t d0 d1 : String} (h : UsualRegrid da cout c0 t d0 d1) :
    FlushIn da.self.arr c0.arr cout.self.arr d0 d1 ∧ Compat da.self.arr cout.self.arr d0 d1 ∧ PairOk da.self.arr c0.arr cout.self.arr d0 d1 := by
  have hsame := h.free
  refine ⟨⟨h.okda, h.okc, h.okout, h.mem, by rw [h.out1]; simp, by rw [h.cdims]; simp, ?_, ?_, ?_, h.full0, h.full1⟩, ⟨Or.inr ?_, ?_⟩, Or.inl ⟨h.out1, da.self.arr.dims.filter (· ≠ d0), [], by simp, ?_, by simp⟩⟩
  · intro d hd
    rw [h.cdims, List.mem_singleton] at hd
    exact hd ▸ h.mem
  · intro d hd
    rw [h.cdims, List.mem_singleton] at hd
    exact hd ▸ h.size
  · by_cases e : d0 = d1
    · exact Or.inl e
    · refine Or.inr ⟨fun hm => e (hsame hm).symm, ?_⟩
      rw [h.out1, List.mem_singleton]
      exact e
  · intro d hd hne
    rw [h.out1, List.mem_singleton] at hd
    exact absurd hd hne
  · intro d hd hne hd'
    rw [h.out1, List.mem_singleton] at hd'
    subst hd'
    exact absurd (hsame hd) hne
  · intro d hd
    simp only [List.mem_filter, decide_eq_true_eq] at hd
    rw [h.cdims, List.mem_singleton]
    exact hd.2

/-- **C181** (shape): the usual call `regrid1d(da, coord)` succeeds, whatever the method but cell averaging and the other options; the result has the dimensions of the data, in
their order, with `d0` replaced by the dimension of `coord`, whose size it takes; each row of the result is what the named routine makes of the row of the data at the
same place, alone. -/
theorem C181_rows (o : RegridOpts) (K : Mat → Mat → Mat → Mat) (hK : Named o.method K) (he : ExtrapKnown o.extrap) {da cout : XData} {c0 : XArr} {t d0 d1 : String}
    (h : UsualRegrid da cout c0 t d0 d1) (named : Bool) (hne : ∀ d ∈ da.self.arr.dims, d ≠ d0 → 0 < da.self.arr.size d) :
    ∃ out, regridTop o {} loadedDims da cout (none, none) none named = .ok out ∧
      out.dims = da.self.arr.dims.map (fun d => if d = d0 then d1 else d) ∧ out.size d1 = cout.self.arr.size d1 ∧
      (∀ d ∈ da.self.arr.dims, d ≠ d0 → out.size d = da.self.arr.size d) ∧
      ∀ pos, (∀ d ∈ out.dims, pos d < out.size d) →
        out.at pos = (K (oneRow (da.self.arr.line d0 pos)) (oneRow (c0.arr.line d0 pos)) (oneRow (cout.self.arr.line d1 pos))).get 0 (pos d1 : Nat) := by
  obtain ⟨hf, hc, hp⟩ := usual_flush h
  have hod : outDims da.self.arr cout.self.arr d0 d1 = da.self.arr.dims.map (fun d => if d = d0 then d1 else d) := by
    unfold outDims
    rw [h.out1]
    simp
  have hos : ∀ d ∈ da.self.arr.dims, d ≠ d0 → outSize da.self.arr cout.self.arr d1 d = da.self.arr.size d := by
    intro d hd hne
    unfold outSize
    rw [if_pos hd]
    split
    next e =>
      subst e
      rcases hf.names with e | e
      · exact absurd e.symm hne
      · exact absurd hd e.1
    · rfl
  obtain ⟨out, h1, h2, h3, h4⟩ := C19_regrid1d_partial o K hK he da.self.arr c0.arr cout.self.arr d0 d1 hf hc hp (fun _ => 0) (by
    intro d hd
    rw [hod] at hd
    obtain ⟨e, he, rfl⟩ := List.mem_map.1 hd
    split
    · unfold outSize
      rw [if_pos rfl]
      exact h.full1
    next hn =>
      rw [hos e he hn]
      exact hne e he hn)
  rw [hod] at h2
  refine ⟨out, ?_, h2, ?_, ?_, h4⟩
  · rw [usual_top o h, h1]
    rfl
  · rw [h3 d1 (by rw [h2]; exact List.mem_map.2 ⟨d0, h.mem, by simp⟩)]
    unfold outSize
    rw [if_pos rfl]
  · intro d hd hn
    rw [h3 d (by rw [h2]; exact List.mem_map.2 ⟨d, hd, by simp [hn]⟩)]
    exact hos d hd hn

/-- **C181** (values): in the usual call with the linear method, where the input coordinate increases along `d0` and the output coordinate along `d1`, the result at an output point of coordinate
`c` is on the straight line through the two data of the same row whose coordinates enclose `c`, missing if one of them is, and it is missing when `c` is out of the range of the input coordinate. -/
theorem C181_linear (o : RegridOpts) (hK : Named o.method linear1d) (he : ExtrapKnown o.extrap) {da cout : XData} {c0 : XArr} {t d0 d1 : String}
    (h : UsualRegrid da cout c0 t d0 d1) (named : Bool) (hne : ∀ d ∈ da.self.arr.dims, d ≠ d0 → 0 < da.self.arr.size d)
    (hi : ∀ pos, Increasing c0.arr d0 pos) (ho : ∀ pos, Increasing cout.self.arr d1 pos) :
    ∃ out, regridTop o {} loadedDims da cout (none, none) none named = .ok out ∧
      ∀ pos, (∀ d ∈ out.dims, pos d < out.size d) → ∀ c : ℚ, cout.self.arr.val [pos d1] = some c →
        (∀ k a b, k + 1 < da.self.arr.size d0 → c0.arr.val [k] = some a → c0.arr.val [k + 1] = some b → a < c → c < b →
          out.at pos = lineThrough a b (da.self.arr.at (moved pos d0 k)) (da.self.arr.at (moved pos d0 (k + 1))) c) ∧
        (∀ n, n < da.self.arr.size d0 → 2 ≤ da.self.arr.size d0 → c0.arr.val [n] = some c →
          (∀ k, k < da.self.arr.size d0 → da.self.arr.at (moved pos d0 k) ≠ none) → out.at pos = da.self.arr.at (moved pos d0 n)) ∧
        (((∀ k q, k < da.self.arr.size d0 → c0.arr.val [k] = some q → c < q) ∨ (∀ k q, k < da.self.arr.size d0 → c0.arr.val [k] = some q → q < c)) →
          out.at pos = none) := by
  obtain ⟨out, h1, h2, h3, -, h5⟩ := C181_rows o linear1d hK he h named hne
  refine ⟨out, h1, ?_⟩
  intro pos hpos c hc
  have hcat : ∀ k, c0.arr.at (moved pos d0 k) = c0.arr.val [k] := by
    intro k
    unfold LArr.at
    rw [h.cdims]
    simp [moved]
  have hoat : ∀ k, cout.self.arr.at (moved pos d1 k) = cout.self.arr.val [k] := by
    intro k
    unfold LArr.at
    rw [h.out1]
    simp [moved]
  have hj : pos d1 < cout.self.arr.size d1 := by
    have := hpos d1 (by rw [h2]; exact List.mem_map.2 ⟨d0, h.mem, by simp⟩)
    rwa [h3] at this
  have hjI : ((pos d1 : Nat) : Int) < ((oneRow (cout.self.arr.line d1 pos)).ny : Int) := by
    show ((pos d1 : Nat) : Int) < (cout.self.arr.size d1 : Int); omega
  have hcv : cout.self.arr.at (moved pos d1 (pos d1)) = some c := by rw [hoat]; exact hc
  have hline := C02_linear1d_interpolates (oneRow (da.self.arr.line d0 pos)) (oneRow (c0.arr.line d0 pos)) (oneRow (cout.self.arr.line d1 pos)) 0 (pos d1 : Nat) (by decide)
    (by show (0 : Int) < max (1 : Int) 1; decide) (by omega) hjI (by show 0 < 1; decide) (by show 0 < 1; decide) (by show 0 < 1; decide) (hi pos).strict.asc (ho pos).strict.asc
  rw [h5 pos hpos]
  refine ⟨?_, ?_, ?_⟩
  · intro k a b hk ha hb hac hcb
    have hk' : (k : Int) + 1 < (c0.arr.size d0 : Int) := by rw [h.size]; omega
    exact C02_linear1d_inside (oneRow (da.self.arr.line d0 pos)) (oneRow (c0.arr.line d0 pos)) (oneRow (cout.self.arr.line d1 pos)) 0 (pos d1 : Nat) (by decide)
      (by show (0 : Int) < max (1 : Int) 1; decide) (by omega) hjI (by show 0 < 1; decide) (by show 0 < 1; decide) (by show 0 < 1; decide) (hi pos).strict.asc (ho pos).strict.asc
      k a b c hcv ⟨by omega, hk', (hcat k).trans ha, (hcat (k + 1)).trans hb, hac, hcb⟩
  · intro n hn h2 hnc hd
    exact kernel_identity o.method linear1d hK da.self.arr c0.arr cout.self.arr d0 d1 pos (hi pos) (ho pos) (by rw [h.size]; exact h2) n (pos d1) (by rw [h.size]; exact hn) hj
      (by rw [hcv, hcat, hnc]) (by rw [h.size]; exact hd)
  · intro hout
    refine (hline.2 c hcv).1 ?_
    rintro i ⟨i0, i1, a, b, ha, hb, hac, hcb⟩
    have i1' : i + 1 < (c0.arr.size d0 : Int) := i1
    rw [h.size] at i1'
    have ha' : c0.arr.val [i.toNat] = some a := (hcat _).symm.trans ha
    have hb' : c0.arr.val [(i + 1).toNat] = some b := (hcat _).symm.trans hb
    rcases hout with hh | hh
    · exact absurd (hh i.toNat a (by omega) ha') (not_lt.mpr hac)
    · exact absurd (hh (i + 1).toNat b (by omega) hb') (not_lt.mpr hcb)

/-- the names that are inferred can be given -/
theorem names_given (sg : SG) (types : CfDims) (da cout : DArr) (d0 d1 n : Str) (t : Option Str) (b b' : Bool) (h : regridNames sg types da cout (none, none) none b = .ok (d0, d1, n))
    (ht : getDimType sg types d1 (some cout) = .ok t) : regridNames sg types da cout (some d0, some d1) none b' = .ok (d0, d1, n) := by
  unfold regridNames at h
  obtain ⟨out, ho, h⟩ := exc_bind_ok _ _ _ h
  obtain ⟨od0, hi, h⟩ := exc_bind_ok _ _ _ h
  cases od0 with
  | none => simp at h
  | some e0 =>
  cases h1 : out.1 with
  | none => rw [h1] at h; simp at h
  | some e1 =>
  rw [h1] at h
  dsimp only [Option.elim] at h
  split at h
  · simp at h
  next hd =>
    obtain ⟨n', hn', h⟩ := exc_map_ok _ _ _ h
    simp only [Prod.mk.injEq] at h
    obtain ⟨rfl, rfl, rfl⟩ := h
    unfold namesCoord at hn'
    simp only [Option.getD_none, if_true] at hn'
    obtain ⟨r, hr, hn'⟩ := exc_bind_ok _ _ _ hn'
    cases r with
    | none => simp at hn'
    | some p =>
      have hp : p.1 = n' := by simpa using hn'
      have := mapError_ok _ _ _ hr
      push Not at hd
      refine C75_dims_partial sg types da cout e0 e1 n' p.2 b' t hd.1 hd.2 ht ?_
      rw [this, ← hp]

/-- **C181** (names given): giving the dimensions, or the coordinate, that the usual call infers does not change its result. (Giving both fails: `C75_names_violated`.) -/
theorem C181_given (o : RegridOpts) {da cout : XData} {c0 : XArr} {t d0 d1 : String} (h : UsualRegrid da cout c0 t d0 d1) (named : Bool) :
    regridTop o {} loadedDims da cout (some d0.toList, some d1.toList) none named = regridTop o {} loadedDims da cout (none, none) none named ∧
    regridTop o {} loadedDims da cout (none, none) (some d0.toList) true = regridTop o {} loadedDims da cout (none, none) none named := by
  have hn := usual_names h named
  refine ⟨?_, ?_⟩
  · unfold regridTop
    rw [hn, names_given {} loadedDims da.names cout.names d0.toList d1.toList d0.toList (some t.toList) named named hn (h.told1.told.type (by show _ ∈ cout.self.arr.dims.map String.toList; rw [h.out1]; simp))]
  · unfold regridTop
    rw [hn, C75_coord_partial {} loadedDims da.names cout.names d0.toList d1.toList d0.toList d0.toList named (toList_ne_nil h.ne) ?_ hn]
    show d0.toList ∈ (da.coords.map fun p => (p.1, p.2.ax)).map (·.1)
    rw [List.map_map]
    exact mem_keys_of_lookupS _ _ (by rw [h.coord]; simp)

/-! ### a case -/

/-- temperatures along time and depth, on three depths and two times, with their two coordinates -/
def exTempTZ : XData :=
  ⟨⟨⟨["time", "depth"], [2, 3], fun i => [[some 1, some 3, some 4], [some 0, none, some 8]].getD (i.getD 0 0) [] |>.getD (i.getD 1 0) none⟩, none, none⟩,
    [("time".toList, ⟨⟨["time"], [2], fun i => [some 0, some 1].getD (i.getD 0 0) none⟩, none, none⟩),
     ("depth".toList, ⟨⟨["depth"], [3], fun i => [some 0, some 10, some 30].getD (i.getD 0 0) none⟩, none, none⟩)]⟩

/-- four levels -/
def exLevels : XData := ⟨⟨⟨["level"], [4], fun i => [some 5, some 10, some 20, some 40].getD (i.getD 0 0) none⟩, none, none⟩, []⟩

example : ∃ c0, UsualRegrid exTempTZ exLevels c0 "z" "depth" "level" ∧ (∀ pos, Increasing c0.arr "depth" pos) ∧ (∀ pos, Increasing exLevels.self.arr "level" pos) := by
  refine ⟨_, ⟨rfl, Or.inl (Or.inl (toldBy "z" "level" (by decide +kernel))), Or.inl (toldBy "z" "depth" (by decide +kernel)), by decide, by decide, ?_, by simp [exTempTZ], ?_, rfl, rfl, ?_, ?_, ?_, ?_, by decide +kernel, by decide +kernel, by decide +kernel⟩, ?_, ?_⟩
  · intro d hd
    have : d = "time" ∨ d = "depth" := by simpa [exTempTZ] using hd
    rcases this with rfl | rfl
    · exact ⟨"t", Or.inl (toldBy "t" "time" (by decide +kernel)), by decide +kernel⟩
    · exact ⟨"z", Or.inl (toldBy "z" "depth" (by decide +kernel)), fun _ => rfl⟩
  · intro p hp
    simp only [exTempTZ, List.mem_cons, List.not_mem_nil, or_false] at hp ⊢
    rcases hp with rfl | rfl <;> simp
  · intro p hp
    simp only [exTempTZ, List.mem_cons, List.not_mem_nil, or_false] at hp ⊢
    rcases hp with rfl | rfl <;> simp
  · exact ⟨by decide, by decide⟩
  · exact ⟨by decide, by decide⟩
  · exact ⟨by decide, by decide⟩
  · intro pos
    refine ⟨?_, ?_⟩
    · intro k hk
      have hk' : k < 3 := hk
      rcases (show k = 0 ∨ k = 1 ∨ k = 2 by omega) with rfl | rfl | rfl <;> simp [LArr.at, moved, exTempTZ]
    · intro k k' a b h1 h2 ha hb
      have h2' : k' < 3 := h2
      rcases (show (k = 0 ∧ k' = 1) ∨ (k = 0 ∧ k' = 2) ∨ (k = 1 ∧ k' = 2) by omega) with ⟨rfl, rfl⟩ | ⟨rfl, rfl⟩ | ⟨rfl, rfl⟩ <;>
        simp [LArr.at, moved, exTempTZ] at ha hb <;> rw [← ha, ← hb] <;> norm_num
  · intro pos
    refine ⟨?_, ?_⟩
    · intro k hk
      have hk' : k < 4 := hk
      rcases (show k = 0 ∨ k = 1 ∨ k = 2 ∨ k = 3 by omega) with rfl | rfl | rfl | rfl <;> simp [LArr.at, moved, exLevels]
    · intro k k' a b h1 h2 ha hb
      have h2' : k' < 4 := h2
      rcases (show (k = 0 ∧ k' = 1) ∨ (k = 0 ∧ k' = 2) ∨ (k = 0 ∧ k' = 3) ∨ (k = 1 ∧ k' = 2) ∨ (k = 1 ∧ k' = 3) ∨ (k = 2 ∧ k' = 3) by omega) with
        ⟨rfl, rfl⟩ | ⟨rfl, rfl⟩ | ⟨rfl, rfl⟩ | ⟨rfl, rfl⟩ | ⟨rfl, rfl⟩ | ⟨rfl, rfl⟩ <;>
        simp [LArr.at, moved, exLevels] at ha hb <;> rw [← ha, ← hb] <;> norm_num

/-- the same along dimensions whose names tell nothing: `t1` has a coordinate with the attribute `axis="T"`, `k` one that matches a CF coordinate of axis `Z`; the output coordinate, along `kout`, has the attribute `axis="z"` -/
def exTempK : XData :=
  ⟨⟨⟨["t1", "k"], [2, 3], fun i => [[some 1, some 3, some 4], [some 0, none, some 8]].getD (i.getD 0 0) [] |>.getD (i.getD 1 0) none⟩, none, none⟩,
    [("t1".toList, ⟨⟨["t1"], [2], fun i => [some 0, some 1].getD (i.getD 0 0) none⟩, some "T".toList, none⟩),
     ("k".toList, ⟨⟨["k"], [3], fun i => [some 0, some 10, some 30].getD (i.getD 0 0) none⟩, none, some "Z".toList⟩)]⟩

/-- see `exTempK` -/
def exKout : XData := ⟨⟨⟨["kout"], [4], fun i => [some 5, some 10, some 20, some 40].getD (i.getD 0 0) none⟩, some "z".toList, none⟩, []⟩

theorem untoldBy (d : String) (h1 : (parseAttr {} .name d.toList).1 = d.toList) (h2 : (builtinDims.all fun p => !p.2.contains (lower d.toList)) = true) : NameUntold d := by
  refine ⟨h1, fun p hp hm => ?_⟩
  rw [loadedDims_eq] at hp
  have := List.all_eq_true.1 h2 p hp
  rw [List.contains_iff_mem.2 hm] at this
  cases this

example : ∃ c0, UsualRegrid exTempK exKout c0 "z" "k" "kout" := by
  have hk : XTold exTempK "k" "z" :=
    Or.inr ⟨untoldBy "k" (by decide +kernel) (by decide +kernel), by decide, _, rfl, rfl, Or.inr ⟨rfl, _, rfl, by decide +kernel⟩⟩
  have ht : XTold exTempK "t1" "t" :=
    Or.inr ⟨untoldBy "t1" (by decide +kernel) (by decide +kernel), by decide, _, rfl, rfl, Or.inl ⟨_, rfl, by decide +kernel⟩⟩
  refine ⟨_, ⟨rfl, Or.inr ⟨untoldBy "kout" (by decide +kernel) (by decide +kernel), by decide, rfl, Or.inl ⟨_, rfl, by decide +kernel⟩⟩, hk, by decide, by decide, ?_,
    by simp [exTempK], ?_, rfl, rfl, ?_, ?_, ?_, ?_, by decide +kernel, by decide +kernel, by decide +kernel⟩⟩
  · intro d hd
    have : d = "t1" ∨ d = "k" := by simpa [exTempK] using hd
    rcases this with rfl | rfl
    · exact ⟨"t", ht, by decide +kernel⟩
    · exact ⟨"z", hk, fun _ => rfl⟩
  · intro p hp
    simp only [exTempK, List.mem_cons, List.not_mem_nil, or_false] at hp ⊢
    rcases hp with rfl | rfl <;> simp
  · intro p hp
    simp only [exTempK, List.mem_cons, List.not_mem_nil, or_false] at hp ⊢
    rcases hp with rfl | rfl <;> simp
  · exact ⟨by decide, by decide⟩
  · exact ⟨by decide, by decide⟩
  · exact ⟨by decide, by decide⟩

end Xoa
