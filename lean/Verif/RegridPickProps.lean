import Verif.OutputPointProps

/-!
# C189: regridding and the other dimensions

Data whose other dimensions are picked (selected, reversed, sorted in another order, repeated) or stored in another order.
-/

namespace Xoa

/-- the position to read in the original array: `s d i` is the original index of the index `i` along `d`, and nothing changes along `dim` -/
def pickPos (s : String → Nat → Nat) (dim : String) (P : String → Nat) : String → Nat := fun d => if d = dim then P d else s d (P d)

/-- `b` holds values of `a`, picked along the dimensions other than `dim`: `b.isel(d=[s d 0, s d 1, ...])` for each of these dimensions, its
dimensions being stored in any order -/
structure Picked {α : Type} (s : String → Nat → Nat) (dim : String) (a b : LArr α) : Prop where
  size : b.size dim = a.size dim
  range : ∀ P : String → Nat, (∀ d ∈ b.dims, P d < b.size d) → ∀ d ∈ a.dims, pickPos s dim P d < a.size d
  vals : ∀ P : String → Nat, (∀ d ∈ b.dims, P d < b.size d) → b.at P = a.at (pickPos s dim P)

theorem pickPos_set (s : String → Nat → Nat) (dim : String) (P : String → Nat) (j : Nat) : pickPos s dim (setPos P dim j) = setPos (pickPos s dim P) dim j := by
  funext d
  unfold pickPos setPos
  by_cases e : d = dim
  · simp only [e, if_true]
  · simp only [e, if_false]

/-- the lines of the picked array -/
theorem Picked.line {s : String → Nat → Nat} {dim : String} {a b : LArr V} (h : Picked s dim a b) {P : String → Nat}
    (hP : ∀ d ∈ b.dims, d ≠ dim → P d < b.size d) {Q : String → Nat} (hQ : ∀ d ∈ a.dims, d ≠ dim → Q d = s d (P d)) :
    SameRow (oneRow (a.line dim Q)) (oneRow (b.line dim P)) 0 0 := by
  refine ⟨h.size.symm, ?_⟩
  intro j h0 hj
  obtain ⟨i, rfl⟩ := Int.eq_ofNat_of_zero_le h0
  show (a.line dim Q).get (i : Nat) = (b.line dim P).get (i : Nat)
  rw [line_get, line_get]
  have hi : i < a.size dim := by
    have : (((i : Nat) : Int) < ((a.size dim : Nat) : Int)) := hj
    omega
  rw [h.vals (setPos P dim i) ?_, pickPos_set]
  · unfold LArr.at
    congr 1
    refine List.map_congr_left fun d hd => ?_
    unfold setPos pickPos
    by_cases e : d = dim
    · simp only [e, if_true]
    · simp only [e, if_false]; exact hQ d hd e
  · intro d hd
    unfold setPos
    by_cases e : d = dim
    · rw [if_pos e, e, h.size]; exact hi
    · rw [if_neg e]; exact hP d hd e

/-- a row-wise routine on the lines -/
theorem RowWise.lines {K : Mat → Mat → Mat → Mat} (hK : RowWise K) {v yi yo v' yi' yo' : Row} (hv : SameRow (oneRow v) (oneRow v') 0 0)
    (hi : SameRow (oneRow yi) (oneRow yi') 0 0) (ho : SameRow (oneRow yo) (oneRow yo') 0 0) (hny : v.n = yi.n) (hpos : 0 < yo.n) (j : Int) :
    (K (oneRow v) (oneRow yi) (oneRow yo)).get 0 j = (K (oneRow v') (oneRow yi') (oneRow yo')).get 0 j :=
  hK.rows (oneRow v) (oneRow yi) (oneRow yo) (oneRow v') (oneRow yi') (oneRow yo') 0 0 (by decide) Int.one_pos (by decide) Int.one_pos Nat.one_pos Nat.one_pos Nat.one_pos Nat.one_pos hny hpos
    (Nat.le_refl _) (Nat.le_refl _) hv hi ho j

/-- the outer part, for any routine that works row by row -/
theorem pick_pairing (K : Mat → Mat → Mat → Mat) (hK : RowWise K) (s : String → Nat → Nat) (da cin cout da' cin' cout' out out' : LArr V) (dim0 dim1 : String)
    (h : FlushIn da cin cout dim0 dim1) (h' : FlushIn da' cin' cout' dim0 dim1)
    (pda : Picked s dim0 da da') (pin : Picked s dim0 cin cin') (pout : Picked s dim1 cout cout')
    (hd : out.dims = outDims da cout dim0 dim1) (hs : ∀ d ∈ out.dims, out.size d = outSize da cout dim1 d)
    (hat : ∀ pos, (∀ d ∈ out.dims, pos d < out.size d) →
        out.at pos = (K (oneRow (da.line dim0 pos)) (oneRow (cin.line dim0 pos)) (oneRow (cout.line dim1 pos))).get 0 (pos dim1 : Nat))
    (hd' : out'.dims = outDims da' cout' dim0 dim1) (hs' : ∀ d ∈ out'.dims, out'.size d = outSize da' cout' dim1 d)
    (hat' : ∀ pos, (∀ d ∈ out'.dims, pos d < out'.size d) →
        out'.at pos = (K (oneRow (da'.line dim0 pos)) (oneRow (cin'.line dim0 pos)) (oneRow (cout'.line dim1 pos))).get 0 (pos dim1 : Nat))
    (hc' : Compat da' cout' dim0 dim1) :
    Picked s dim1 out out' := by
  have m1 : dim1 ∈ out.dims := by
    rw [hd]; unfold outDims
    exact List.mem_append_right _ (List.mem_map.2 ⟨dim0, h.d0, if_pos rfl⟩)
  have m1' : dim1 ∈ out'.dims := by
    rw [hd']; unfold outDims
    exact List.mem_append_right _ (List.mem_map.2 ⟨dim0, h'.d0, if_pos rfl⟩)
  have s1 : out.size dim1 = cout.size dim1 := by rw [hs _ m1]; simp [outSize]
  have s1' : out'.size dim1 = cout'.size dim1 := by rw [hs' _ m1']; simp [outSize]
  -- positions in the other dimensions of the data and of the output coordinate
  have inda : ∀ P : String → Nat, (∀ d ∈ out'.dims, P d < out'.size d) → ∀ d ∈ da'.dims, d ≠ dim0 → P d < da'.size d := by
    intro P hP d hm hne
    have hne1 : d ≠ dim1 := by
      rintro rfl
      rcases h'.names with e | e
      · exact hne e.symm
      · exact e.1 hm
    have hmo : d ∈ out'.dims := by
      rw [hd']; unfold outDims
      exact List.mem_append_right _ (List.mem_map.2 ⟨d, hm, if_neg hne⟩)
    have := hP d hmo
    rw [hs' d hmo] at this
    unfold outSize at this
    rw [if_neg hne1, if_pos hm] at this
    exact this
  have incout : ∀ P : String → Nat, (∀ d ∈ out'.dims, P d < out'.size d) → ∀ d ∈ cout'.dims, d ≠ dim1 → P d < cout'.size d := by
    intro P hP d hm hne
    by_cases hda : d ∈ da'.dims
    · have hne0 : d ≠ dim0 := by
        rintro rfl
        rcases h'.names with e | e
        · exact hne e
        · exact e.2 hm
      rw [← hc'.size d hda hne0 hm]
      exact inda P hP d hda hne0
    · have hmo : d ∈ out'.dims := by
        rw [hd']; unfold outDims
        refine List.mem_append_left _ (List.mem_filter.2 ⟨hm, ?_⟩)
        simp [hne, hda]
      have := hP d hmo
      rw [hs' d hmo] at this
      unfold outSize at this
      rw [if_neg hne, if_neg hda] at this
      exact this
  have rda : ∀ P : String → Nat, (∀ d ∈ out'.dims, P d < out'.size d) → ∀ d ∈ da.dims, d ≠ dim0 → s d (P d) < da.size d := by
    intro P hP d hm hne
    have := pda.range (setPos P dim0 0) (by
      intro x hx
      unfold setPos
      by_cases e : x = dim0
      · rw [if_pos e, e]; exact h'.w0
      · rw [if_neg e]; exact inda P hP x hx e) d hm
    unfold pickPos setPos at this
    simpa only [hne, if_false] using this
  have rcout : ∀ P : String → Nat, (∀ d ∈ out'.dims, P d < out'.size d) → ∀ d ∈ cout.dims, d ≠ dim1 → s d (P d) < cout.size d := by
    intro P hP d hm hne
    have := pout.range (setPos P dim1 0) (by
      intro x hx
      unfold setPos
      by_cases e : x = dim1
      · rw [if_pos e, e]; exact h'.w1
      · rw [if_neg e]; exact incout P hP x hx e) d hm
    unfold pickPos setPos at this
    simpa only [hne, if_false] using this
  have hrange : ∀ P : String → Nat, (∀ d ∈ out'.dims, P d < out'.size d) → ∀ d ∈ out.dims, pickPos s dim1 P d < out.size d := by
    intro P hP d hm
    rw [hs d hm]
    unfold pickPos outSize
    by_cases e : d = dim1
    · rw [if_pos e, if_pos e, e, ← pout.size, ← s1']; exact hP dim1 m1'
    · rw [if_neg e, if_neg e]
      rw [hd] at hm
      unfold outDims at hm
      by_cases hda : d ∈ da.dims
      · rw [if_pos hda]
        have hne0 : d ≠ dim0 := by
          rintro rfl
          rcases List.mem_append.1 hm with hm | hm
          · simp only [List.mem_filter, decide_eq_true_eq] at hm; exact hm.2.2 hda
          · obtain ⟨x, _, hx⟩ := List.mem_map.1 hm
            by_cases hx0 : x = d
            · rw [if_pos hx0] at hx; exact e hx.symm
            · rw [if_neg hx0] at hx; exact hx0 hx
        exact rda P hP d hda hne0
      · rw [if_neg hda]
        rcases List.mem_append.1 hm with hm | hm
        · simp only [List.mem_filter, decide_eq_true_eq] at hm
          exact rcout P hP d hm.1 hm.2.1
        · obtain ⟨x, hx1, hx⟩ := List.mem_map.1 hm
          by_cases hx0 : x = dim0
          · rw [if_pos hx0] at hx; exact absurd hx.symm e
          · rw [if_neg hx0] at hx; exact absurd (hx ▸ hx1) hda
  refine ⟨by rw [s1, s1', pout.size], hrange, ?_⟩
  intro P hP
  rw [hat' P hP, hat _ (hrange P hP)]
  have hq : pickPos s dim1 P dim1 = P dim1 := if_pos rfl
  rw [hq]
  symm
  have ne1 : ∀ d ∈ da.dims, d ≠ dim0 → d ≠ dim1 := by
    rintro d hm hne rfl
    rcases h.names with e | e
    · exact hne e.symm
    · exact e.1 hm
  refine hK.lines (pda.line (inda P hP) ?_) (pin.line ?_ ?_) (pout.line (incout P hP) ?_) ?_ ?_ _
  · intro d hm hne
    unfold pickPos; rw [if_neg (ne1 d hm hne)]
  · intro d hm hne
    rw [h'.csz d hm]
    exact inda P hP d (h'.csub d hm) hne
  · intro d hm hne
    unfold pickPos; rw [if_neg (ne1 d (h.csub d hm) hne)]
  · intro d hm hne
    unfold pickPos; rw [if_neg hne]
  · exact (h.csz dim0 h.c0).symm
  · exact h.w1

theorem Named.rowWise {a : EArg} {K : Mat → Mat → Mat → Mat} (hK : Named a K) : RowWise K := by
  cases hK
  · exact rowWise_linear1d
  · exact rowWise_linear1d
  · exact rowWise_linear1d
  · exact rowWise_linear1d
  · exact rowWise_nearest1d
  · exact rowWise_nearest1d
  · exact rowWise_cubic1d
  · exact rowWise_cubic1d
  · exact rowWise_hermit1d 0 0
  · exact rowWise_hermit1d 0 0
  · exact rowWise_hermit1d 0 0

/-- the data have no empty dimension -/
def NoEmpty (a : LArr V) : Prop := ∀ d ∈ a.dims, 0 < a.size d

theorem outPos {da cin cout : LArr V} {dim0 dim1 : String} (h : FlushIn da cin cout dim0 dim1) (hda : NoEmpty da) (hco : NoEmpty cout) :
    ∀ d ∈ outDims da cout dim0 dim1, (fun _ : String => 0) d < outSize da cout dim1 d := by
  intro d hd
  show 0 < outSize da cout dim1 d
  unfold outSize
  by_cases e : d = dim1
  · rw [if_pos e]; exact h.w1
  · rw [if_neg e]
    by_cases hm : d ∈ da.dims
    · rw [if_pos hm]; exact hda d hm
    · rw [if_neg hm]
      unfold outDims at hd
      rcases List.mem_append.1 hd with hd | hd
      · exact hco d (List.mem_filter.1 hd).1
      · obtain ⟨x, hx1, hx⟩ := List.mem_map.1 hd
        by_cases hx0 : x = dim0
        · rw [if_pos hx0] at hx; exact absurd hx.symm e
        · rw [if_neg hx0] at hx; exact absurd (hx ▸ hx1) hm

/-- **C189 (`regrid1d`).** Data and coordinates picked in the same way along the other dimensions (selected, reversed, sorted or stored in another order), with rows
paired with their own coordinates before and after (C19): the regridded data are those of the original arrays, picked in the same way. Each method but
cell averaging. -/
theorem C189_regrid1d (o : RegridOpts) (K : Mat → Mat → Mat → Mat) (hK : Named o.method K) (he : ExtrapKnown o.extrap) (s : String → Nat → Nat)
    (da cin cout da' cin' cout' : LArr V) (dim0 dim1 : String)
    (h : FlushIn da cin cout dim0 dim1) (hc : Compat da cout dim0 dim1) (hp : PairOk da cin cout dim0 dim1) (hn : NoEmpty da ∧ NoEmpty cout)
    (h' : FlushIn da' cin' cout' dim0 dim1) (hc' : Compat da' cout' dim0 dim1) (hp' : PairOk da' cin' cout' dim0 dim1) (hn' : NoEmpty da' ∧ NoEmpty cout')
    (pda : Picked s dim0 da da') (pin : Picked s dim0 cin cin') (pout : Picked s dim1 cout cout') :
    ∃ out out', regrid1d o da cin cout dim0 dim1 = .ok out ∧ regrid1d o da' cin' cout' dim0 dim1 = .ok out' ∧ Picked s dim1 out out' := by
  obtain ⟨out, e1, e2, e3, e4⟩ := C19_regrid1d_partial o K hK he da cin cout dim0 dim1 h hc hp _ (outPos h hn.1 hn.2)
  obtain ⟨out', f1, f2, f3, f4⟩ := C19_regrid1d_partial o K hK he da' cin' cout' dim0 dim1 h' hc' hp' _ (outPos h' hn'.1 hn'.2)
  exact ⟨out, out', e1, f1, pick_pairing K hK.rowWise s da cin cout da' cin' cout' out out' dim0 dim1 h h' pda pin pout e2 e3 e4 f2 f3 f4 hc'⟩

/-- **C189 (cell averaging).** -/
theorem C189_cellave (o : RegridOpts) (hm : NamedCellave o.method) (he : ExtrapKnown o.extrap) (s : String → Nat → Nat)
    (da cin cout da' cin' cout' : LArr V) (dim0 dim1 : String)
    (h : FlushIn da cin cout dim0 dim1) (hc : Compat da cout dim0 dim1) (hp : PairOk da cin cout dim0 dim1) (hn : NoEmpty da ∧ NoEmpty cout)
    (h' : FlushIn da' cin' cout' dim0 dim1) (hc' : Compat da' cout' dim0 dim1) (hp' : PairOk da' cin' cout' dim0 dim1) (hn' : NoEmpty da' ∧ NoEmpty cout')
    (pda : Picked s dim0 da da') (pin : Picked s dim0 cin cin') (pout : Picked s dim1 cout cout') (hi2 : 2 ≤ cin.size dim0) (ho2 : 2 ≤ cout.size dim1) :
    ∃ out out', regrid1d o da cin cout dim0 dim1 = .ok out ∧ regrid1d o da' cin' cout' dim0 dim1 = .ok out' ∧ Picked s dim1 out out' := by
  obtain ⟨out, e1, e2, e3, e4⟩ := C19_regrid1d_cellave_partial o hm he da cin cout dim0 dim1 h hc hp hi2 ho2 _ (outPos h hn.1 hn.2)
  obtain ⟨out', f1, f2, f3, f4⟩ := C19_regrid1d_cellave_partial o hm he da' cin' cout' dim0 dim1 h' hc' hp' (by rw [pin.size]; exact hi2) (by rw [pout.size]; exact ho2)
    _ (outPos h' hn'.1 hn'.2)
  exact ⟨out, out', e1, f1, pick_pairing _ (rowWise_cellave false) s da cin cout da' cin' cout' out out' dim0 dim1 h h' pda pin pout e2 e3 e4 f2 f3 f4 hc'⟩

/-! ## 1-D coordinates: any order of the dimensions -/

theorem picked_1d (s : String → Nat → Nat) (c : LArr V) (dim : String) (hc : c.dims = [dim]) : Picked s dim c c := by
  have hq : ∀ (P : String → Nat), ∀ d ∈ c.dims, pickPos s dim P d = P d := by
    intro P d hd
    rw [hc, List.mem_singleton] at hd
    unfold pickPos; rw [if_pos hd]
  refine ⟨rfl, fun P hP d hd => by rw [hq P d hd]; exact hP d hd, fun P _ => ?_⟩
  unfold LArr.at
  congr 1
  exact List.map_congr_left fun d hd => (hq P d hd).symm

/-- data with 1-D coordinates: the input coordinate is along `dim0`, with the same size, the output coordinate is along `dim1`, which is `dim0` or a new name -/
structure Regrid1dIn (da cin cout : LArr V) (dim0 dim1 : String) : Prop where
  okda : da.Ok
  okcin : cin.Ok
  okcout : cout.Ok
  d0 : dim0 ∈ da.dims
  cin1 : cin.dims = [dim0]
  cout1 : cout.dims = [dim1]
  csz : cin.size dim0 = da.size dim0
  new : dim1 = dim0 ∨ dim1 ∉ da.dims
  w1 : 0 < cout.size dim1
  noEmpty : NoEmpty da

theorem Regrid1dIn.flush {da cin cout : LArr V} {dim0 dim1 : String} (h : Regrid1dIn da cin cout dim0 dim1) :
    FlushIn da cin cout dim0 dim1 ∧ Compat da cout dim0 dim1 ∧ PairOk da cin cout dim0 dim1 ∧ NoEmpty da ∧ NoEmpty cout := by
  have hno : dim1 ∈ da.dims → dim1 = dim0 := fun hm => h.new.resolve_right fun hc => hc hm
  refine ⟨⟨h.okda, h.okcin, h.okcout, h.d0, by rw [h.cout1]; simp, by rw [h.cin1]; simp, ?_, ?_, ?_, h.noEmpty _ h.d0, h.w1⟩, ⟨Or.inr ?_, ?_⟩,
    Or.inl ⟨h.cout1, da.dims.filter (· ≠ dim0), [], by simp, ?_, by simp⟩, h.noEmpty, ?_⟩
  · intro d hd; rw [h.cin1, List.mem_singleton] at hd; exact hd ▸ h.d0
  · intro d hd; rw [h.cin1, List.mem_singleton] at hd; exact hd ▸ h.csz
  · by_cases e : dim0 = dim1
    · exact Or.inl e
    · exact Or.inr ⟨fun hm => e (hno hm).symm, by rw [h.cout1, List.mem_singleton]; exact e⟩
  · intro d hd hne; rw [h.cout1, List.mem_singleton] at hd; exact absurd hd hne
  · intro d hd hne hd'
    rw [h.cout1, List.mem_singleton] at hd'
    subst hd'
    exact absurd (hno hd) hne
  · intro d hd
    simp only [List.mem_filter, decide_eq_true_eq] at hd
    rw [h.cin1, List.mem_singleton]; exact hd.2
  · intro d hd; rw [h.cout1, List.mem_singleton] at hd; subst hd; exact h.w1

/-- **C189 (1-D coordinates).** With 1-D coordinates, whatever the order of the dimensions of the data before and after. -/
theorem C189_coords_1d (o : RegridOpts) (K : Mat → Mat → Mat → Mat) (hK : Named o.method K) (he : ExtrapKnown o.extrap) (s : String → Nat → Nat)
    (da da' cin cout : LArr V) (dim0 dim1 : String) (h : Regrid1dIn da cin cout dim0 dim1) (h' : Regrid1dIn da' cin cout dim0 dim1) (pda : Picked s dim0 da da') :
    ∃ out out', regrid1d o da cin cout dim0 dim1 = .ok out ∧ regrid1d o da' cin cout dim0 dim1 = .ok out' ∧ Picked s dim1 out out' := by
  obtain ⟨a1, a2, a3, a4⟩ := h.flush
  obtain ⟨b1, b2, b3, b4⟩ := h'.flush
  exact C189_regrid1d o K hK he s da cin cout da' cin cout dim0 dim1 a1 a2 a3 a4 b1 b2 b3 b4 pda (picked_1d s cin dim0 h.cin1) (picked_1d s cout dim1 h.cout1)

/-- **C189 (1-D coordinates, cell averaging).** -/
theorem C189_coords_1d_cellave (o : RegridOpts) (hm : NamedCellave o.method) (he : ExtrapKnown o.extrap) (s : String → Nat → Nat)
    (da da' cin cout : LArr V) (dim0 dim1 : String) (h : Regrid1dIn da cin cout dim0 dim1) (h' : Regrid1dIn da' cin cout dim0 dim1) (pda : Picked s dim0 da da')
    (hi2 : 2 ≤ cin.size dim0) (ho2 : 2 ≤ cout.size dim1) :
    ∃ out out', regrid1d o da cin cout dim0 dim1 = .ok out ∧ regrid1d o da' cin cout dim0 dim1 = .ok out' ∧ Picked s dim1 out out' := by
  obtain ⟨a1, a2, a3, a4⟩ := h.flush
  obtain ⟨b1, b2, b3, b4⟩ := h'.flush
  exact C189_cellave o hm he s da cin cout da' cin cout dim0 dim1 a1 a2 a3 a4 b1 b2 b3 b4 pda (picked_1d s cin dim0 h.cin1) (picked_1d s cout dim1 h.cout1) hi2 ho2

/-! ## concrete case -/

/-- data (t, z) -/
def pickDa : LArr V := ⟨["t", "z"], [3, 2], fun p => some ((p.getD 0 0 : ℚ) * 10 + (p.getD 1 0 : ℚ))⟩

/-- the last two times, in reverse order, with the dimensions in the other order -/
def pickDa' : LArr V := ⟨["z", "t"], [2, 2], fun p => some ((2 - (p.getD 1 0 : ℚ)) * 10 + (p.getD 0 0 : ℚ))⟩

def pickC : LArr V := ⟨["z"], [2], fun p => some (p.getD 0 0 : ℚ)⟩

theorem pick_example : Regrid1dIn pickDa pickC pickC "z" "z" ∧ Regrid1dIn pickDa' pickC pickC "z" "z" ∧ Picked (fun _ i => 2 - i) "z" pickDa pickDa' := by
  refine ⟨⟨⟨by decide, by decide⟩, ⟨by decide, by decide⟩, ⟨by decide, by decide⟩, by decide, rfl, rfl, by decide, Or.inl rfl, by decide, by unfold NoEmpty; decide⟩,
    ⟨⟨by decide, by decide⟩, ⟨by decide, by decide⟩, ⟨by decide, by decide⟩, by decide, rfl, rfl, by decide, Or.inl rfl, by decide, by unfold NoEmpty; decide⟩, by decide, ?_, ?_⟩
  · intro P hP d hd
    have h1 : P "t" < 2 := hP "t" (by decide)
    have h2 : P "z" < 2 := hP "z" (by decide)
    simp only [pickDa, List.mem_cons, List.not_mem_nil, or_false] at hd
    rcases hd with rfl | rfl
    · show 2 - P "t" < 3; omega
    · show P "z" < 2; omega
  · intro P hP
    have h1 : P "t" < 2 := hP "t" (by decide)
    show some ((2 - (P "t" : ℚ)) * 10 + (P "z" : ℚ)) = some (((2 - P "t" : Nat) : ℚ) * 10 + (P "z" : ℚ))
    rw [Nat.cast_sub (by omega)]
    norm_num

example : ∃ out out', regrid1d {} pickDa pickC pickC "z" "z" = .ok out ∧ regrid1d {} pickDa' pickC pickC "z" "z" = .ok out' ∧
    Picked (fun _ i => 2 - i) "z" out out' :=
  C189_coords_1d {} linear1d .default ⟨_, rfl⟩ _ _ _ _ _ _ _ pick_example.1 pick_example.2.1 pick_example.2.2

end Xoa
