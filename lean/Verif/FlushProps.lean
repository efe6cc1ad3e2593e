import Verif.FlushAlign
import Verif.Interp1dProps
import Mathlib.Data.List.Perm.Subperm
import Mathlib.Algebra.BigOperators.Group.List.Lemmas

namespace Xoa

/-! ## C20: what is accepted -/

/-- C20: data and output coordinate that both have a dimension the other has not (working dimensions apart) are
refused. -/
theorem C20_conflict (da cin cout : LArr V) (dim0 dim1 : String)
    (hx : ∃ d ∈ da.dims, d ≠ dim0 ∧ ¬ (d ∈ cout.dims ∧ d ≠ dim1))
    (hy : ∃ d ∈ cout.dims, d ≠ dim1 ∧ ¬ (d ∈ da.dims ∧ d ≠ dim0)) :
    flush da cin cout dim0 dim1 = .error .xoaError := by
  unfold flush
  simp only []
  rw [if_pos]
  obtain ⟨a, a1, a2, a3⟩ := hx
  obtain ⟨b, b1, b2, b3⟩ := hy
  refine ⟨⟨a, ?_, ?_⟩, b, ?_, ?_⟩
  · simp [a1, a2]
  · simpa using a3
  · simp [b1, b2]
  · simpa using b3

/-- C20: a shared dimension of different sizes is refused. -/
theorem C20_sizes (da cin cout : LArr V) (dim0 dim1 d : String) (h1 : d ∈ da.dims) (h2 : d ≠ dim0) (h3 : d ∈ cout.dims) (h4 : d ≠ dim1)
    (hs : da.size d ≠ cout.size d) : ∃ e, flush da cin cout dim0 dim1 = .error e := by
  unfold flush
  simp only []
  split_ifs with ha hb
  · exact ⟨_, rfl⟩
  · exact ⟨_, rfl⟩
  · exfalso
    apply hb
    exact ⟨d, by simp [h1, h2, h3, h4], hs⟩

theorem flush_ok (da cin cout : LArr V) (dim0 dim1 : String) (h : FlushIn da cin cout dim0 dim1) (hc : Compat da cout dim0 dim1) :
    ∃ f, flush da cin cout dim0 dim1 = .ok f ∧
      f.workDims = dimY da cout dim1 ++ dimX da cout dim0 ++ dimC da cout dim0 ++ [dim1] ∧
      f.workShape = (dimY da cout dim1 ++ dimX da cout dim0 ++ dimC da cout dim0).map (sizeOf2 da cout) ++ [cout.size dim1] ∧
      f.finalDims = da.dims.map (fun d => if d = dim0 then dim1 else d) ∧
      (∃ x, Aligned da x (dimY da cout dim1 ++ dimX da cout dim0 ++ dimC da cout dim0) dim0 (sizeOf2 da cout) ∧ x.flat2 = .ok f.daIn) ∧
      (∃ x, Aligned cin x (dimY da cout dim1 ++ dimC da cout dim0 ++ dimZ da cin cout dim0) dim0 (sizeOf2 da cout) ∧ x.flat2 = .ok f.coordIn) ∧
      (∃ x, Aligned cout x (if cout.dims.length > 1 then dimY da cout dim1 ++ dimC da cout dim0 ++ dimZ da cin cout dim0 else [])
        dim1 (sizeOf2 da cout) ∧ x.flat2 = .ok f.coordOut) := by
  obtain ⟨da2, cin2, cout2, e, a1, a2, a3⟩ := flush_aligned da cin cout dim0 dim1 h hc
  obtain ⟨m1, f1, -⟩ := a1.flat h.w0
  obtain ⟨m2, f2, -⟩ := a2.flat (by rw [h.csz _ h.c0]; exact h.w0)
  obtain ⟨m3, f3, -⟩ := a3.flat h.w1
  rw [f1, f2, f3] at e
  refine ⟨_, e, ?_, ?_, rfl, ⟨da2, a1, f1⟩, ⟨cin2, a2, f2⟩, ⟨cout2, a3, f3⟩⟩
  · show da2.dims.dropLast ++ [dim1] = _
    rw [a1.dims]; simp
  · show da2.shape.dropLast ++ [cout2.size dim1] = _
    rw [a1.shape, a3.wsize]; simp

/-- C20: everything else is accepted: if one of the arrays has all the other dimensions of the other one, with the
same sizes, the flattening succeeds. -/
theorem C20_accepts (da cin cout : LArr V) (dim0 dim1 : String) (h : FlushIn da cin cout dim0 dim1) (hc : Compat da cout dim0 dim1) :
    ∃ f, flush da cin cout dim0 dim1 = .ok f := by
  obtain ⟨f, e, -⟩ := flush_ok da cin cout dim0 dim1 h hc
  exact ⟨f, e⟩

/-! ## C18: going back to the original layout -/

theorem final_dims (da cin cout : LArr V) (dim0 dim1 : String) (h : FlushIn da cin cout dim0 dim1) :
    (dimY da cout dim1 ++ dimX da cout dim0 ++ dimC da cout dim0 ++ [dim1]).filter
      (fun d => d ∉ [] ++ da.dims.map (fun d => if d = dim0 then dim1 else d)) = dimY da cout dim1 := by
  have hfin : ∀ d, d ∈ da.dims.map (fun d => if d = dim0 then dim1 else d) ↔ d = dim1 ∨ (d ∈ da.dims ∧ d ≠ dim0) := by
    intro d
    simp only [List.mem_map]
    constructor
    · rintro ⟨a, ha, rfl⟩
      split
      · exact Or.inl rfl
      · exact Or.inr ⟨ha, by assumption⟩
    · rintro (rfl | ⟨h1, h2⟩)
      · exact ⟨dim0, h.d0, by simp⟩
      · exact ⟨d, h1, by simp [h2]⟩
  rw [List.append_assoc, List.append_assoc, List.filter_append]
  have e1 : (dimX da cout dim0 ++ (dimC da cout dim0 ++ [dim1])).filter
      (fun d => decide (d ∉ [] ++ da.dims.map (fun d => if d = dim0 then dim1 else d))) = [] := by
    rw [List.filter_eq_nil_iff]
    intro d hd
    simp only [List.nil_append, decide_eq_true_eq, not_not, hfin]
    simp only [dimX, dimC, List.mem_append, List.mem_filter, decide_eq_true_eq, List.mem_singleton] at hd
    tauto
  rw [e1, List.append_nil, List.filter_eq_self]
  intro d hd
  simp only [List.nil_append, decide_eq_true_eq, hfin]
  simp only [dimY, List.mem_filter, decide_eq_true_eq] at hd
  tauto

/-- dimensions of the result: those of the data, with the working dimension renamed in place, preceded by the dimensions
that only the output coordinate has -/
def outDims (da cout : LArr V) (dim0 dim1 : String) : List String :=
  cout.dims.filter (fun d => d ≠ dim1 ∧ d ∉ da.dims) ++ da.dims.map (fun d => if d = dim0 then dim1 else d)

/-- size of a dimension of the result -/
def outSize (da cout : LArr V) (dim1 d : String) : Nat :=
  if d = dim1 then cout.size dim1 else if d ∈ da.dims then da.size d else cout.size d

theorem getBack_ok (da cin cout : LArr V) (dim0 dim1 : String) (h : FlushIn da cin cout dim0 dim1) (hc : Compat da cout dim0 dim1)
    (f : Flushed) (hf : flush da cin cout dim0 dim1 = .ok f) (m : Mat) (hnx : m.nx = f.daIn.nx) (hny : m.ny = cout.size dim1) :
    ∃ out, getBack f m = .ok out ∧ out.Ok ∧ out.dims = outDims da cout dim0 dim1 ∧
      (∀ d ∈ out.dims, out.size d = outSize da cout dim1 d) ∧
      ∀ pos, (∀ d ∈ out.dims, pos d < out.size d) →
        out.at pos = m.get (ravel ((dimY da cout dim1 ++ dimX da cout dim0 ++ dimC da cout dim0).map (sizeOf2 da cout))
          ((dimY da cout dim1 ++ dimX da cout dim0 ++ dimC da cout dim0).map pos) : Nat) (pos dim1 : Nat) := by
  obtain ⟨f', e, hwd, hws, hfd, ⟨x, ax, fx⟩, -, -⟩ := flush_ok da cin cout dim0 dim1 h hc
  rw [hf] at e
  simp only [Except.ok.injEq] at e
  subst e
  generalize hL : dimY da cout dim1 ++ dimX da cout dim0 ++ dimC da cout dim0 = L at *
  obtain ⟨m1, g1, n1, n2, -⟩ := ax.flat h.w0
  rw [fx] at g1
  simp only [Except.ok.injEq] at g1
  rw [g1] at hnx
  -- names in L
  have hLm : ∀ d, d ∈ L ↔ (d ∈ da.dims ∧ d ≠ dim0) ∨ (d ∈ cout.dims ∧ d ≠ dim1 ∧ d ∉ da.dims) := by
    intro d
    rw [← hL]
    simp only [dimX, dimY, dimC, List.mem_append, List.mem_filter, decide_eq_true_eq]
    tauto
  have hd1L : dim1 ∉ L := by
    rw [hLm]
    rintro (⟨h1, h2⟩ | ⟨-, h2, -⟩)
    · rcases h.names with h3 | h3
      · exact h2 h3.symm
      · exact h3.1 h1
    · exact h2 rfl
  have hnod : (L ++ [dim1]).Nodup :=
    List.Nodup.append ax.notMem.2 (by simp) (by intro d h1 h2; simp only [List.mem_singleton] at h2; subst h2; exact hd1L h1)
  obtain ⟨w, hw⟩ : ∃ w : LArr V, w = ⟨f.workDims, f.workShape, fun idx =>
    m.get ((ravel f.workShape idx / m.ny : Nat)) ((ravel f.workShape idx % m.ny : Nat))⟩ := ⟨_, rfl⟩
  have hun : unflat2 m f.workDims f.workShape = .ok w := by
    unfold unflat2
    rw [if_pos, hw]
    rw [hws, hnx, n1, hny]
    simp
  have hwdims : w.dims = L ++ [dim1] := by rw [hw]; exact hwd
  have hwok : w.Ok := by
    refine ⟨by rw [hwdims]; exact hnod, ?_⟩
    rw [hwdims, hw]
    simp [hws]
  have hfin := final_dims da cin cout dim0 dim1 h
  rw [hL] at hfin
  have htr : xrTranspose w (none :: f.finalDims.map some) = .ok (w.permute (outDims da cout dim0 dim1)) := by
    apply xrTranspose_ok
    · rw [if_neg (by simp)]
      have := flatMap_infix_ell w.dims [] f.finalDims
      rw [List.map_nil, List.nil_append, List.nil_append] at this
      rw [this, hfd, hwdims, hfin]
      rfl
    · unfold outDims
      refine List.Nodup.append (h.okcout.nodup.filter _) ?_ ?_
      · apply List.Nodup.map_on _ h.okda.nodup
        intro a ha b hb hab
        split_ifs at hab with q1 q2 q2
        · rw [q1, q2]
        · rcases h.names with h3 | h3
          · exact absurd (hab.symm.trans h3.symm) q2
          · exact absurd (hab ▸ hb) h3.1
        · rcases h.names with h3 | h3
          · exact absurd (hab.trans h3.symm) q1
          · exact absurd (hab ▸ ha) h3.1
        · exact hab
      · intro d h1 h2
        simp only [List.mem_filter, decide_eq_true_eq] at h1
        obtain ⟨a, ha, e⟩ := List.mem_map.1 h2
        split_ifs at e with q
        · exact h1.2.1 e.symm
        · subst e; exact h1.2.2 ha
    · intro d
      rw [hwdims]
      unfold outDims
      simp only [List.mem_append, List.mem_filter, decide_eq_true_eq, List.mem_map, List.mem_singleton, hLm]
      constructor
      · rintro (h1 | ⟨a, ha, rfl⟩)
        · tauto
        · split
          · right; rfl
          · left; left; exact ⟨ha, by assumption⟩
      · rintro ((h1 | h1) | h1)
        · exact Or.inr ⟨d, h1.1, by simp [h1.2]⟩
        · exact Or.inl h1
        · exact Or.inr ⟨dim0, h.d0, by simp [h1]⟩
  obtain ⟨o1, o2, o3, o4⟩ := xrTranspose_at _ _ _ htr
  have hwsz : ∀ d ∈ w.dims, w.size d = outSize da cout dim1 d := by
    intro d hd
    have hsh : w.shape = (L ++ [dim1]).map (fun d => outSize da cout dim1 d) := by
      rw [hw]
      show f.workShape = _
      rw [hws, List.map_append]
      congr 1
      · apply List.map_congr_left
        intro e he
        have : e ≠ dim1 := by rintro rfl; exact hd1L he
        simp [outSize, this, sizeOf2]
      · simp [outSize]
    unfold LArr.size
    rw [hsh, hwdims]
    rw [hwdims] at hd
    exact look_map _ _ _ hd
  refine ⟨_, ?_, o1, rfl, ?_, ?_⟩
  · unfold getBack
    rw [hun]
    exact htr
  · intro d hd
    rw [o3 d ((o2 d).1 hd), hwsz d ((o2 d).1 hd)]
  · intro pos hp
    rw [o4]
    have hpw : ∀ d ∈ w.dims, pos d < outSize da cout dim1 d := by
      intro d hd
      have := hp d ((o2 d).2 hd)
      rwa [o3 d hd, hwsz d hd] at this
    have hp1 : pos dim1 < m.ny := by
      have := hpw dim1 (by rw [hwdims]; simp)
      rw [hny]
      simpa [outSize] using this
    unfold LArr.at
    rw [hwdims, hw]
    show m.get ((ravel f.workShape ((L ++ [dim1]).map pos) / m.ny : Nat)) ((ravel f.workShape ((L ++ [dim1]).map pos) % m.ny : Nat)) = _
    have hr : ravel f.workShape ((L ++ [dim1]).map pos) = ravel (L.map (sizeOf2 da cout)) (L.map pos) * m.ny + pos dim1 := by
      rw [hws, List.map_append, List.map_cons, List.map_nil, ravel_append _ _ _ _ (by simp), ravel_single, hny]
      simp
    rw [hr]
    have hpos : 0 < m.ny := by omega
    rw [Nat.mul_comm, Nat.mul_add_div hpos, Nat.div_eq_of_lt hp1, Nat.mul_add_mod, Nat.mod_eq_of_lt hp1, Nat.add_zero]

/-- C18: for every result `m` of a row-wise computation (as many rows as flattened data, as many columns as
the output coordinate), `get_back` gives an array whose dimensions are those of the data with the working dimension in
place (after the dimensions only the output coordinate has), and whose value at each named position is an element of the
row of `m` computed from the data row with the same named position. -/
theorem C18_layout (da cin cout : LArr V) (dim0 dim1 : String) (h : FlushIn da cin cout dim0 dim1) (hc : Compat da cout dim0 dim1)
    (f : Flushed) (hf : flush da cin cout dim0 dim1 = .ok f) (m : Mat) (hnx : m.nx = f.daIn.nx) (hny : m.ny = cout.size dim1) :
    ∃ out, getBack f m = .ok out ∧ out.dims = outDims da cout dim0 dim1 ∧
      (∀ d ∈ out.dims, out.size d = outSize da cout dim1 d) ∧
      ∀ pos, (∀ d ∈ out.dims, pos d < out.size d) →
        ∃ r : Nat, r < f.daIn.nx ∧ out.at pos = m.get (r : Nat) (pos dim1 : Nat) ∧
          ∀ j : Nat, j < da.size dim0 → f.daIn.get (r : Nat) (j : Nat) = da.at (setPos pos dim0 j) := by
  obtain ⟨out, e, h1, h2, h3, h4⟩ := getBack_ok da cin cout dim0 dim1 h hc f hf m hnx hny
  obtain ⟨f', e', hwd, hws, hfd, ⟨x, ax, fx⟩, -, -⟩ := flush_ok da cin cout dim0 dim1 h hc
  rw [hf] at e'
  simp only [Except.ok.injEq] at e'
  subst e'
  obtain ⟨m1, g1, n1, n2, g2⟩ := ax.flat h.w0
  rw [fx] at g1
  simp only [Except.ok.injEq] at g1
  rw [← g1] at n1 n2 g2
  refine ⟨out, e, h2, h3, ?_⟩
  intro pos hp
  have hin : ∀ d ∈ dimY da cout dim1 ++ dimX da cout dim0 ++ dimC da cout dim0, pos d < sizeOf2 da cout d := by
    intro d hd
    have hd1 : d ≠ dim1 := by
      rintro rfl
      simp only [dimX, dimY, dimC, List.mem_append, List.mem_filter, decide_eq_true_eq] at hd
      rcases h.names with q | q
      · rw [q] at hd; tauto
      · tauto
    have hdo : d ∈ out.dims := by
      rw [h2]
      unfold outDims
      simp only [dimX, dimY, dimC, List.mem_append, List.mem_filter, decide_eq_true_eq] at hd
      simp only [List.mem_append, List.mem_filter, decide_eq_true_eq, List.mem_map]
      rcases hd with (hd | hd) | hd
      · exact Or.inl hd
      · exact Or.inr ⟨d, hd.1, by simp [hd.2.1]⟩
      · exact Or.inr ⟨d, hd.1, by simp [hd.2.1]⟩
    have := hp d hdo
    rw [h3 d hdo] at this
    unfold outSize at this
    rw [if_neg hd1] at this
    exact this
  refine ⟨_, ?_, h4 pos hp, fun j hj => g2 pos hin j hj⟩
  rw [n1]
  exact ravel_lt _ _ (inShape_map _ _ _ hin)

/-! ## C19: pairing of the rows -/

/-- a row-wise routine, as those of `xoa.interp`: when there are no more rows of output coordinates than rows of data, the row `ix`
of its result depends on the rows `ix` of the data, `ix % n` of the coordinates only -/
structure RowWise (K : Mat → Mat → Mat → Mat) : Prop where
  nx : ∀ vari yi yo, (K vari yi yo).nx = max vari.nx yo.nx
  ny : ∀ vari yi yo, (K vari yi yo).ny = yo.ny
  rows : ∀ (vari yi yo vari' yi' yo' : Mat) (ix ix' : Int),
    0 ≤ ix → ix < vari.nx → 0 ≤ ix' → ix' < vari'.nx → 0 < yi.nx → 0 < yo.nx → 0 < yi'.nx → 0 < yo'.nx →
    vari.ny = yi.ny → 0 < yo.ny → yo.nx ≤ vari.nx → yo'.nx ≤ vari'.nx →
    SameRow vari vari' (ix % vari.nx) (ix' % vari'.nx) → SameRow yi yi' (ix % yi.nx) (ix' % yi'.nx) →
    SameRow yo yo' (ix % yo.nx) (ix' % yo'.nx) → ∀ j : Int, (K vari yi yo).get ix j = (K vari' yi' yo').get ix' j

theorem rowWise_linear1d : RowWise linear1d :=
  ⟨fun _ _ _ => rfl, fun _ _ _ => rfl, fun v yi yo v' yi' yo' ix ix' a b c d e f g i j k _ _ l m n o =>
    (C06_linear1d_nearest1d_rows v yi yo v' yi' yo' ix ix' a (by omega) c (by omega) (by omega) e f (by omega) g i j k l m n o).1⟩

theorem rowWise_nearest1d : RowWise nearest1d :=
  ⟨fun _ _ _ => rfl, fun _ _ _ => rfl, fun v yi yo v' yi' yo' ix ix' a b c d e f g i j k _ _ l m n o =>
    (C06_linear1d_nearest1d_rows v yi yo v' yi' yo' ix ix' a (by omega) c (by omega) (by omega) e f (by omega) g i j k l m n o).2⟩

theorem rowWise_cubic1d : RowWise cubic1d :=
  ⟨fun _ _ _ => rfl, fun _ _ _ => rfl, fun v yi yo v' yi' yo' ix ix' a b c d e f g i j k _ _ l m n o =>
    (C69_cubic1d_hermit1d_rows_partial v yi yo v' yi' yo' 0 0 ix ix' a b c d e f g i j k l m n o).1⟩

theorem rowWise_hermit1d (bias tension : ℚ) : RowWise (fun v yi yo => hermit1d v yi yo bias tension) :=
  ⟨fun _ _ _ => rfl, fun _ _ _ => rfl, fun v yi yo v' yi' yo' ix ix' a b c d e f g i j k _ _ l m n o =>
    (C69_cubic1d_hermit1d_rows_partial v yi yo v' yi' yo' bias tension ix ix' a b c d e f g i j k l m n o).2⟩

/-- an array of one row -/
def oneRow (r : Row) : Mat := ⟨1, r.n, fun _ j => r.get j⟩

/-- the layouts for which rows are paired correctly: the output coordinate is 1-D and the other dimensions of the
input coordinate are the last ones of the data; or the output coordinate has all the other dimensions of the
input coordinate -/
def PairOk (da cin cout : LArr V) (dim0 dim1 : String) : Prop :=
  (cout.dims = [dim1] ∧ ∃ D1 D2, da.dims.filter (· ≠ dim0) = D1 ++ D2 ∧ (∀ d ∈ D1, d ∉ cin.dims) ∧ ∀ d ∈ D2, d ∈ cin.dims) ∨
  (cout.dims.length > 1 ∧ ∀ d ∈ cin.dims, d ≠ dim0 → d ∈ cout.dims)

theorem sameRow_oneRow (m : Mat) (r : Row) (i : Nat) (hn : m.ny = r.n) (h : ∀ j : Nat, j < r.n → m.get (i : Nat) (j : Nat) = r.get (j : Nat)) :
    SameRow m (oneRow r) (i : Int) 0 := by
  refine ⟨hn, ?_⟩
  intro j h0 h1
  have := h j.toNat (by omega)
  rw [Int.toNat_of_nonneg h0] at this
  exact this

theorem line_get (a : LArr V) (d : String) (pos : String → Nat) (j : Nat) : (a.line d pos).get (j : Nat) = a.at (setPos pos d j) := by
  unfold LArr.line setPos
  simp

theorem prod_le_of_subset (L F : List String) (S pos : String → Nat) (hF : F.Nodup) (hs : ∀ d ∈ F, d ∈ L)
    (hp : ∀ d ∈ L, pos d < S d) : (F.map S).prod ≤ (L.map S).prod := by
  obtain ⟨l', hl1, hl2⟩ := List.Nodup.subperm hF hs
  have h1 : (F.map S).prod = (l'.map S).prod := ((hl1.map S).prod_eq).symm
  rw [h1]
  exact Nat.le_of_dvd (prod_map_pos L S pos hp) (List.Sublist.prod_dvd_prod (hl2.map S))

/-- C18/C19, partial: each value of the result is the one the interpolation routine gives for the single data row, input
coordinate row and output coordinate row that have the same named position. Missing: the layouts that are
not `PairOk`, for which it is false (`C19_violated_1d`, `C19_violated_nd`), and arrays with an empty dimension (the position `pos0`
witnesses that all sizes are positive). -/
theorem C19_pairing_partial (K : Mat → Mat → Mat → Mat) (hK : RowWise K) (da cin cout : LArr V) (dim0 dim1 : String)
    (h : FlushIn da cin cout dim0 dim1) (hc : Compat da cout dim0 dim1) (hp : PairOk da cin cout dim0 dim1)
    (pos0 : String → Nat) (hpos0 : ∀ d ∈ outDims da cout dim0 dim1, pos0 d < outSize da cout dim1 d) :
    ∃ out, regridWith K da cin cout dim0 dim1 = .ok out ∧ out.dims = outDims da cout dim0 dim1 ∧
      (∀ d ∈ out.dims, out.size d = outSize da cout dim1 d) ∧
      ∀ pos, (∀ d ∈ out.dims, pos d < out.size d) →
        out.at pos = (K (oneRow (da.line dim0 pos)) (oneRow (cin.line dim0 pos)) (oneRow (cout.line dim1 pos))).get 0 (pos dim1 : Nat) := by
  obtain ⟨f, hf, hwd, hws, hfd, ⟨x, ax, fx⟩, ⟨y, ay, fy⟩, ⟨z, az, fz⟩⟩ := flush_ok da cin cout dim0 dim1 h hc
  have hcw : 0 < cin.size dim0 := by rw [h.csz _ h.c0]; exact h.w0
  obtain ⟨m1, g1, n1, n2, r1⟩ := ax.flat h.w0
  obtain ⟨m2, g2, p1, p2, r2⟩ := ay.flat hcw
  obtain ⟨m3, g3, q1, q2, r3⟩ := az.flat h.w1
  rw [fx] at g1; rw [fy] at g2; rw [fz] at g3
  simp only [Except.ok.injEq] at g1 g2 g3
  rw [← g1] at n1 n2 r1
  rw [← g2] at p1 p2 r2
  rw [← g3] at q1 q2 r3
  -- membership in the layouts
  have hLm : ∀ d, d ∈ dimY da cout dim1 ++ dimX da cout dim0 ++ dimC da cout dim0 ↔
      (d ∈ da.dims ∧ d ≠ dim0) ∨ (d ∈ cout.dims ∧ d ≠ dim1 ∧ d ∉ da.dims) := by
    intro d
    simp only [dimX, dimY, dimC, List.mem_append, List.mem_filter, decide_eq_true_eq]
    tauto
  have hinL : ∀ pos : String → Nat, (∀ d ∈ outDims da cout dim0 dim1, pos d < outSize da cout dim1 d) →
      ∀ d ∈ dimY da cout dim1 ++ dimX da cout dim0 ++ dimC da cout dim0, pos d < sizeOf2 da cout d := by
    intro pos hpos d hd
    rw [hLm] at hd
    have hd1 : d ≠ dim1 := by
      rintro rfl
      rcases h.names with q | q
      · rw [q] at hd; tauto
      · tauto
    have hdo : d ∈ outDims da cout dim0 dim1 := by
      unfold outDims
      simp only [List.mem_append, List.mem_filter, decide_eq_true_eq, List.mem_map]
      rcases hd with hd | hd
      · exact Or.inr ⟨d, hd.1, by simp [hd.2]⟩
      · exact Or.inl hd
    have := hpos d hdo
    unfold outSize at this
    rw [if_neg hd1] at this
    exact this
  -- the layouts of the coordinates are suffixes of the layout of the data
  obtain ⟨E1, F1, hE, hF⟩ : ∃ E1 F1,
      dimY da cout dim1 ++ dimX da cout dim0 ++ dimC da cout dim0 = E1 ++ (dimY da cout dim1 ++ dimC da cout dim0 ++ dimZ da cin cout dim0) ∧
      dimY da cout dim1 ++ dimX da cout dim0 ++ dimC da cout dim0 = F1 ++ (if cout.dims.length > 1 then
        dimY da cout dim1 ++ dimC da cout dim0 ++ dimZ da cin cout dim0 else []) := by
    rcases hp with ⟨hco, D1, D2, hD, hD1, hD2⟩ | ⟨hlen, hsub⟩
    · have hY0 : dimY da cout dim1 = [] := by unfold dimY; rw [hco]; simp
      have hnot : ∀ d ∈ da.dims, d ≠ dim0 → d ∉ cout.dims := by
        intro d hd hne hdc
        rw [hco] at hdc
        simp only [List.mem_singleton] at hdc
        subst hdc
        rcases h.names with q | q
        · exact hne q.symm
        · exact q.1 hd
      have hC0 : dimC da cout dim0 = [] := by
        unfold dimC
        rw [List.filter_eq_nil_iff]
        intro d hd
        simp only [decide_eq_true_eq, not_and]
        exact hnot d hd
      have hX0 : dimX da cout dim0 = D1 ++ D2 := by
        rw [← hD]
        unfold dimX
        apply List.filter_congr
        intro d hd
        have := hnot d hd
        simp only [decide_eq_decide]
        tauto
      have hZ0 : dimZ da cin cout dim0 = D2 := by
        unfold dimZ
        rw [hX0, List.filter_append]
        have e1 : D1.filter (fun d => decide (d ∈ cin.dims)) = [] := by
          rw [List.filter_eq_nil_iff]; intro d hd; simp [hD1 d hd]
        have e2 : D2.filter (fun d => decide (d ∈ cin.dims)) = D2 := by
          rw [List.filter_eq_self]; intro d hd; simp [hD2 d hd]
        rw [e1, e2, List.nil_append]
      refine ⟨D1, D1 ++ D2, ?_, ?_⟩
      · rw [hY0, hC0, hX0, hZ0]; simp
      · rw [hY0, hC0, hX0, hco]; simp
    · have hZ0 : dimZ da cin cout dim0 = [] := by
        unfold dimZ
        rw [List.filter_eq_nil_iff]
        intro d hd
        simp only [dimX, List.mem_filter, decide_eq_true_eq] at hd
        simp only [decide_eq_true_eq]
        intro hdc
        exact hd.2.2 (hsub d hdc hd.2.1)
      rw [if_pos hlen, hZ0, List.append_nil]
      rcases hc.sub with hs | hs
      · have hX0 : dimX da cout dim0 = [] := by
          unfold dimX
          rw [List.filter_eq_nil_iff]
          intro d hd
          simp only [decide_eq_true_eq, not_and, not_not]
          exact hs d hd
        exact ⟨[], [], by rw [hX0]; simp, by rw [hX0]; simp⟩
      · have hY0 : dimY da cout dim1 = [] := by
          unfold dimY
          rw [List.filter_eq_nil_iff]
          intro d hd
          simp only [decide_eq_true_eq, not_and, not_not]
          exact hs d hd
        exact ⟨dimX da cout dim0, dimX da cout dim0, by rw [hY0]; simp, by rw [hY0]; simp⟩
  generalize hLL : dimY da cout dim1 ++ dimX da cout dim0 ++ dimC da cout dim0 = L at *
  generalize hEE : dimY da cout dim1 ++ dimC da cout dim0 ++ dimZ da cin cout dim0 = E at *
  generalize hFF : (if cout.dims.length > 1 then E else []) = F at *
  have hFle : f.coordOut.nx ≤ f.daIn.nx := by
    rw [n1, q1]
    exact prod_le_of_subset L F _ pos0 az.notMem.2 (fun d hd => by rw [hF]; exact List.mem_append_right _ hd) (hinL pos0 hpos0)
  obtain ⟨out, e, -, h2, h3, h4⟩ := getBack_ok da cin cout dim0 dim1 h hc f hf (K f.daIn f.coordIn f.coordOut)
    (by rw [hK.nx]; omega) (by rw [hK.ny, q2])
  rw [hLL] at h4
  refine ⟨out, ?_, h2, h3, ?_⟩
  · unfold regridWith
    rw [hf]
    exact e
  · intro pos hpos
    have hin := hinL pos (by
      intro d hd
      rw [← h2] at hd
      rw [← h3 d hd]
      exact hpos d hd)
    have hinE : ∀ d ∈ E, pos d < sizeOf2 da cout d := fun d hd => hin d (by rw [hE]; exact List.mem_append_right _ hd)
    have hinF : ∀ d ∈ F, pos d < sizeOf2 da cout d := fun d hd => hin d (by rw [hF]; exact List.mem_append_right _ hd)
    rw [h4 pos hpos]
    have hlt := ravel_lt _ _ (inShape_map _ _ _ hin)
    have hmE : ravel (L.map (sizeOf2 da cout)) (L.map pos) % (E.map (sizeOf2 da cout)).prod = ravel (E.map (sizeOf2 da cout)) (E.map pos) := by
      rw [hE]; exact ravel_mod_suffix E1 E _ pos hinE
    have hmF : ravel (L.map (sizeOf2 da cout)) (L.map pos) % (F.map (sizeOf2 da cout)).prod = ravel (F.map (sizeOf2 da cout)) (F.map pos) := by
      rw [hF]; exact ravel_mod_suffix F1 F _ pos hinF
    have hEpos := prod_map_pos E _ pos hinE
    have hFpos := prod_map_pos F _ pos hinF
    generalize hix : ravel (L.map (sizeOf2 da cout)) (L.map pos) = ix at *
    have one0 : ((0 : Int) % ((1 : Nat) : Int)) = 0 := by decide
    refine hK.rows f.daIn f.coordIn f.coordOut _ _ _ (ix : Int) 0 (by omega) (by rw [n1]; exact_mod_cast hlt) (by omega)
      (by show (0 : Int) < ((1 : Nat) : Int); decide) (by rw [p1]; omega) (by rw [q1]; omega) (by show 0 < 1; decide) (by show 0 < 1; decide)
      (by rw [n2, p2, h.csz _ h.c0]) (by rw [q2]; exact h.w1) hFle (by show 1 ≤ 1; decide) ?_ ?_ ?_ _
    · have e1 : (ix : Int) % f.daIn.nx = (ix : Nat) := by
        rw [n1]
        exact_mod_cast Nat.mod_eq_of_lt hlt
      rw [e1]
      show SameRow _ _ _ (0 % ((1 : Nat) : Int))
      rw [one0]
      apply sameRow_oneRow _ _ _ n2
      intro j hj
      rw [line_get, ← hix]
      exact r1 pos hin j hj
    · have e1 : (ix : Int) % f.coordIn.nx = (ravel (E.map (sizeOf2 da cout)) (E.map pos) : Nat) := by
        rw [p1, ← hmE]; rfl
      rw [e1]
      show SameRow _ _ _ (0 % ((1 : Nat) : Int))
      rw [one0]
      apply sameRow_oneRow _ _ _ p2
      intro j hj
      rw [line_get]
      exact r2 pos hinE j hj
    · have e1 : (ix : Int) % f.coordOut.nx = (ravel (F.map (sizeOf2 da cout)) (F.map pos) : Nat) := by
        rw [q1, ← hmF]; rfl
      rw [e1]
      show SameRow _ _ _ (0 % ((1 : Nat) : Int))
      rw [one0]
      apply sameRow_oneRow _ _ _ q2
      intro j hj
      rw [line_get]
      exact r3 pos hinF j hj

/-! ## Examples and violations -/

/-- array from its row-major values -/
def LArr.ofList (dims : List String) (shape : List Nat) (l : List V) : LArr V := ⟨dims, shape, fun idx => (l[ravel shape idx]?).getD none⟩

/-- data (time, x, z) -/
def exDa : LArr V := LArr.ofList ["t", "x", "z"] [2, 2, 2] [some 0, some 2, some 0, some 4, some 0, some 6, some 0, some 8]
/-- depths (x, z): last other dimension -/
def exCinX : LArr V := LArr.ofList ["x", "z"] [2, 2] [some 0, some 1, some 10, some 11]
/-- depths (t, z): not the last other dimension -/
def exCinT : LArr V := LArr.ofList ["t", "z"] [2, 2] [some 0, some 1, some 10, some 11]
/-- depths (t, x, z) -/
def exCinTX : LArr V := LArr.ofList ["t", "x", "z"] [2, 2, 2] [some 0, some 1, some 0, some 1, some 10, some 11, some 10, some 11]
def exCout : LArr V := LArr.ofList ["zo"] [1] [some (1/2)]
/-- output depths (x, zo) -/
def exCoutX : LArr V := LArr.ofList ["x", "zo"] [2, 1] [some (1/2), some (1/2)]

def exPos (t x z : Nat) : String → Nat := fun d => if d = "t" then t else if d = "x" then x else if d = "zo" then z else 0

theorem ofList_ok (dims : List String) (shape : List Nat) (l : List V) (h : dims.Nodup) (hl : shape.length = dims.length) :
    (LArr.ofList dims shape l).Ok := ⟨h, hl⟩

-- the hypotheses of `C19_pairing_partial` are met by 3-D data with a 2-D input coordinate
example : FlushIn exDa exCinX exCout "z" "zo" ∧ Compat exDa exCout "z" "zo" ∧ PairOk exDa exCinX exCout "z" "zo" := by
  refine ⟨⟨ofList_ok _ _ _ (by decide) rfl, ofList_ok _ _ _ (by decide) rfl, ofList_ok _ _ _ (by decide) rfl, by decide, by decide, by decide,
    by decide, by decide, by decide, by decide, by decide⟩, ⟨by decide, by decide⟩, Or.inl ⟨rfl, ["t"], ["x"], by decide, by decide, by decide⟩⟩
-- and by an output coordinate that varies too
example : FlushIn exDa exCinX exCoutX "z" "zo" ∧ Compat exDa exCoutX "z" "zo" ∧ PairOk exDa exCinX exCoutX "z" "zo" := by
  refine ⟨⟨ofList_ok _ _ _ (by decide) rfl, ofList_ok _ _ _ (by decide) rfl, ofList_ok _ _ _ (by decide) rfl, by decide, by decide, by decide,
    by decide, by decide, by decide, by decide, by decide⟩, ⟨by decide, by decide⟩, Or.inr ⟨by decide, by decide⟩⟩
example : ((regridWith linear1d exDa exCinX exCout "z" "zo").toOption.map (fun r => (r.dims, r.shape, r.at (exPos 1 0 0), r.at (exPos 1 1 0)))) =
    some (["t", "x", "zo"], [2, 2, 1], some 3, none) := by decide +kernel

/-- C19 is false when the input coordinate varies along a dimension that is not among the last ones of the data: the
row (t=0, x=1) is interpolated with the depths of t=1 (missing value instead of 2). -/
theorem C19_violated_1d :
    FlushIn exDa exCinT exCout "z" "zo" ∧ Compat exDa exCout "z" "zo" ∧
    (regridWith linear1d exDa exCinT exCout "z" "zo").toOption.map (fun r => r.at (exPos 0 1 0)) = some none ∧
    (linear1d (oneRow (exDa.line "z" (exPos 0 1 0))) (oneRow (exCinT.line "z" (exPos 0 1 0))) (oneRow (exCout.line "zo" (exPos 0 1 0)))).get 0 0
      = some 2 := by
  refine ⟨⟨ofList_ok _ _ _ (by decide) rfl, ofList_ok _ _ _ (by decide) rfl, ofList_ok _ _ _ (by decide) rfl, by decide, by decide, by decide,
    by decide, by decide, by decide, by decide, by decide⟩, ⟨by decide, by decide⟩, by decide +kernel, by decide +kernel⟩

/-- C19 is false when the output coordinate varies along some of the other dimensions and the input coordinate also
varies along another one: data (t, x, z), input depths (t, x, z), output depths (x, zo). -/
theorem C19_violated_nd :
    FlushIn exDa exCinTX exCoutX "z" "zo" ∧ Compat exDa exCoutX "z" "zo" ∧
    (regridWith linear1d exDa exCinTX exCoutX "z" "zo").toOption.map (fun r => r.at (exPos 0 1 0)) = some none ∧
    (linear1d (oneRow (exDa.line "z" (exPos 0 1 0))) (oneRow (exCinTX.line "z" (exPos 0 1 0))) (oneRow (exCoutX.line "zo" (exPos 0 1 0)))).get 0 0
      = some 2 := by
  refine ⟨⟨ofList_ok _ _ _ (by decide) rfl, ofList_ok _ _ _ (by decide) rfl, ofList_ok _ _ _ (by decide) rfl, by decide, by decide, by decide,
    by decide, by decide, by decide, by decide, by decide⟩, ⟨by decide, by decide⟩, by decide +kernel, by decide +kernel⟩

/-! ## C63: reorder -/

/-- C63 is false of the code: `reorder` raises `TypeError` for every array and every order. -/
theorem C63_violated {α} (a : LArr α) (types : String → Option Char) (order : List Char) : reorderCode a types order = .error .typeError := rfl

theorem reorderDims_spec (dims : List String) (types : String → Option Char) (ndim : Nat) (want : List String)
    (hu : ∀ d ∈ want, d ∈ dims ∧ (types d).isSome ∧ ∀ d' ∈ dims, types d' = types d → d' = d) :
    ∀ (k : Nat) (acc : List String), k + want.length ≤ ndim - 1 →
      reorderDims dims types ndim ((List.range' k want.length).zip (want.map (fun d => (types d).getD ' '))) acc =
        .ok (want.reverse ++ acc) := by
  induction want with
  | nil => intro k acc _; rfl
  | cons d ds ih =>
    intro k acc hk
    simp only [List.length_cons] at hk
    simp only [List.length_cons, List.range'_succ, List.map_cons, List.zip_cons_cons, reorderDims]
    rw [if_neg (by omega)]
    obtain ⟨h1, h2, h3⟩ := hu d (by simp)
    obtain ⟨c, hc⟩ := Option.isSome_iff_exists.1 h2
    have hf : dims.find? (fun d' => decide (types d' = some ((types d).getD ' '))) = some d := by
      have hsome : (dims.find? (fun d' => decide (types d' = some ((types d).getD ' ')))).isSome := by
        rw [List.find?_isSome]
        exact ⟨d, h1, by simp [hc]⟩
      obtain ⟨x, hx⟩ := Option.isSome_iff_exists.1 hsome
      have hx1 := List.find?_some hx
      have hx2 := List.mem_of_find?_eq_some hx
      simp only [hc, Option.getD_some, decide_eq_true_eq] at hx1
      rw [hx, h3 x hx2 (by rw [hx1, hc])]
    rw [hf]
    dsimp only
    rw [ih (fun d' hd' => hu d' (by simp [hd'])) (k + 1) (d :: acc) (by omega)]
    simp

/-- C63, partial: if the types of dimensions were obtained, an order naming distinct dimensions of the array by types that no
other dimension has (at most all but one of the dimensions) would put them at the right in that order and keep the values. Missing:
`reorder` itself, which always raises (`C63_violated`); an order naming all the dimensions (the first letter is then ignored,
`C63_full_order`); the `-` symbol, which matches nothing (`C63_dash`). -/
theorem C63_reorder_partial {α} (a : LArr α) (ha : a.Ok) (types : String → Option Char) (want : List String) (hn : want.Nodup)
    (hu : ∀ d ∈ want, d ∈ a.dims ∧ (types d).isSome ∧ ∀ d' ∈ a.dims, types d' = types d → d' = d)
    (hl : want.length + 1 ≤ a.dims.length) :
    ∃ r, reorderTo a types (want.map (fun d => (types d).getD ' ')) = .ok r ∧
      r.dims = a.dims.filter (fun d => d ∉ want) ++ want ∧ (∀ pos, r.at pos = a.at pos) ∧ ∀ d ∈ a.dims, r.size d = a.size d := by
  unfold reorderTo
  have h1 := reorderDims_spec a.dims types a.dims.length want.reverse (fun d hd => hu d (by simpa using hd)) 0 []
    (by simp only [List.length_reverse]; omega)
  rw [List.range_eq_range', List.length_map, ← List.map_reverse]
  rw [List.length_reverse] at h1
  rw [h1]
  simp only [List.reverse_reverse, List.append_nil]
  obtain ⟨r, hr, ht⟩ := C17_transpose a ha want hn (fun _ => none) .compat (by decide)
  rw [← newSize_asked] at ht
  refine ⟨r, hr, ?_, ht.vals, fun d hd => (ht.sizes d hd).2⟩
  rw [ht.dims]
  unfold wanted
  rw [if_pos rfl]
  congr 1
  rw [List.filter_eq_self]
  intro d hd
  simpa using (hu d hd).1

/-- the dash would not match any dimension: the documented wildcard is refused -/
theorem C63_dash (a : LArr V) (types : String → Option Char) (ht : ∀ d, types d ≠ some '-') (h : 2 ≤ a.dims.length) (o : List Char) :
    reorderTo a types (o ++ ['-']) = .error .xoaError := by
  unfold reorderTo
  have hr : (List.range (o ++ ['-']).length).zip (o ++ ['-']).reverse =
      (0, '-') :: ((List.range' 1 o.length).zip o.reverse) := by
    rw [List.range_eq_range']
    simp [List.range'_succ]
  rw [hr]
  simp only [reorderDims]
  rw [if_neg (by omega)]
  have : a.dims.find? (fun d => decide (types d = some '-')) = none := by
    rw [List.find?_eq_none]
    intro d _
    simpa using ht d
  rw [this]
  rfl

def exTypes : String → Option Char := fun d => if d = "y" then some 'y' else if d = "x" then some 'x' else if d = "t" then some 't' else none
example : (reorderTo exArr exTypes ['x', 'y']).toOption.map (fun r => r.dims) = some ["t", "x", "y"] := by decide +kernel
/-- a full order would work too as its first letter is not read -/
theorem C63_full_order : (reorderTo exArr exTypes ['x', 't', 'y']).toOption.map (fun r => r.dims) = some ["x", "t", "y"] ∧
    (reorderTo exArr exTypes ['?', 't', 'y']).toOption.map (fun r => r.dims) = some ["x", "t", "y"] := by decide +kernel

end Xoa
