import Verif.RegridProps

/-! # What `regrid1d` itself refuses and accepts (C20) -/

namespace Xoa

/-- **C20.** `regrid1d` refuses, with its own error and whatever the options, data and an output coordinate that both have a dimension the other has not (working dimensions apart). -/
theorem C20_regrid1d_conflict (o : RegridOpts) (da cin cout : LArr V) (dim0 dim1 : String)
    (hx : ∃ d ∈ da.dims, d ≠ dim0 ∧ ¬ (d ∈ cout.dims ∧ d ≠ dim1))
    (hy : ∃ d ∈ cout.dims, d ≠ dim1 ∧ ¬ (d ∈ da.dims ∧ d ≠ dim0)) :
    regrid1d o da cin cout dim0 dim1 = .error .xoaError := by
  unfold regrid1d
  rw [C20_conflict da cin cout dim0 dim1 hx hy]
  rfl

/-- **C20.** `regrid1d` refuses a shared dimension of different sizes, whatever the options. -/
theorem C20_regrid1d_sizes (o : RegridOpts) (da cin cout : LArr V) (dim0 dim1 d : String) (h1 : d ∈ da.dims) (h2 : d ≠ dim0) (h3 : d ∈ cout.dims) (h4 : d ≠ dim1)
    (hs : da.size d ≠ cout.size d) : ∃ e, regrid1d o da cin cout dim0 dim1 = .error e := by
  obtain ⟨e, he⟩ := C20_sizes da cin cout dim0 dim1 d h1 h2 h3 h4 hs
  refine ⟨e, ?_⟩
  unfold regrid1d
  rw [he]
  rfl

theorem regridWith_accepts (K : Mat → Mat → Mat → Mat) (hK : RowWise K) (da cin cout : LArr V) (dim0 dim1 : String)
    (h : FlushIn da cin cout dim0 dim1) (hc : Compat da cout dim0 dim1)
    (hne : ∀ d ∈ outDims da cout dim0 dim1, 0 < outSize da cout dim1 d) :
    ∃ out, regridWith K da cin cout dim0 dim1 = .ok out ∧ out.dims = outDims da cout dim0 dim1 ∧ ∀ d ∈ out.dims, out.size d = outSize da cout dim1 d := by
  obtain ⟨f, hf, hwd, hws, hfd, ⟨x, ax, fx⟩, -, ⟨z, az, fz⟩⟩ := flush_ok da cin cout dim0 dim1 h hc
  obtain ⟨m1, g1, n1, n2, r1⟩ := ax.flat h.w0
  obtain ⟨m3, g3, q1, q2, r3⟩ := az.flat h.w1
  rw [fx] at g1; rw [fz] at g3
  simp only [Except.ok.injEq] at g1 g3
  rw [← g1] at n1
  rw [← g3] at q1 q2
  have hLm : ∀ d, d ∈ dimY da cout dim1 ++ dimX da cout dim0 ++ dimC da cout dim0 ↔
      (d ∈ da.dims ∧ d ≠ dim0) ∨ (d ∈ cout.dims ∧ d ≠ dim1 ∧ d ∉ da.dims) := by
    intro d
    simp only [dimX, dimY, dimC, List.mem_append, List.mem_filter, decide_eq_true_eq]
    tauto
  have hinL : ∀ d ∈ dimY da cout dim1 ++ dimX da cout dim0 ++ dimC da cout dim0, 0 < sizeOf2 da cout d := by
    intro d hd
    rw [hLm] at hd
    have hd1 : d ≠ dim1 := by
      rintro rfl
      rcases h.names with q | q
      · rw [q] at hd; tauto
      · tauto
    have hdo : d ∈ outDims da cout dim0 dim1 := by
      unfold outDims
      simp only [List.mem_append, List.mem_filter, decide_eq_true_eq, List.mem_map]
      rcases hd with hd | hd
      · exact Or.inr ⟨d, hd.1, by simp [hd.2]⟩
      · exact Or.inl hd
    have := hne d hdo
    unfold outSize at this
    rw [if_neg hd1] at this
    exact this
  have hFle : f.coordOut.nx ≤ f.daIn.nx := by
    rw [n1, q1]
    refine prod_le_of_subset _ _ _ (fun _ => 0) az.notMem.2 (fun d hd => ?_) hinL
    split at hd
    · simp only [dimX, dimY, dimC, dimZ, List.mem_append, List.mem_filter, decide_eq_true_eq] at hd ⊢
      tauto
    · cases hd
  obtain ⟨out, e, -, h2, h3, -⟩ := getBack_ok da cin cout dim0 dim1 h hc f hf (K f.daIn f.coordIn f.coordOut)
    (by rw [hK.nx]; omega) (by rw [hK.ny, q2])
  refine ⟨out, ?_, h2, h3⟩
  unfold regridWith
  rw [hf]
  exact e

theorem Named.rowWise {m : EArg} {K : Mat → Mat → Mat → Mat} (h : Named m K) : RowWise K := by
  cases h
  · exact rowWise_linear1d
  · exact rowWise_linear1d
  · exact rowWise_linear1d
  · exact rowWise_linear1d
  · exact rowWise_nearest1d
  · exact rowWise_nearest1d
  · exact rowWise_cubic1d
  · exact rowWise_cubic1d
  · exact rowWise_hermit1d 0 0
  · exact rowWise_hermit1d 0 0
  · exact rowWise_hermit1d 0 0

/-- **C20.** Everything else is accepted by `regrid1d`, with every interpolation method: if one of the arrays has all the other dimensions of the other one, with the same sizes, there is a
result, whose dimensions are those of the data, the working one being replaced in place, after those only the output coordinate has. -/
theorem C20_regrid1d_accepts (o : RegridOpts) (K : Mat → Mat → Mat → Mat) (hK : Named o.method K) (he : ExtrapKnown o.extrap) (da cin cout : LArr V) (dim0 dim1 : String)
    (h : FlushIn da cin cout dim0 dim1) (hc : Compat da cout dim0 dim1) (hne : ∀ d ∈ outDims da cout dim0 dim1, 0 < outSize da cout dim1 d) :
    ∃ out, regrid1d o da cin cout dim0 dim1 = .ok out ∧ out.dims = outDims da cout dim0 dim1 ∧ ∀ d ∈ out.dims, out.size d = outSize da cout dim1 d := by
  rw [C21_method o K hK he]
  exact regridWith_accepts K hK.rowWise da cin cout dim0 dim1 h hc hne

/-- **C20.** So is it by cell averaging, along working dimensions of two points at least. -/
theorem C20_regrid1d_cellave_accepts (o : RegridOpts) (hm : NamedCellave o.method) (he : ExtrapKnown o.extrap) (da cin cout : LArr V) (dim0 dim1 : String)
    (h : FlushIn da cin cout dim0 dim1) (hc : Compat da cout dim0 dim1) (hi2 : 2 ≤ cin.size dim0) (ho2 : 2 ≤ cout.size dim1)
    (hne : ∀ d ∈ outDims da cout dim0 dim1, 0 < outSize da cout dim1 d) :
    ∃ out, regrid1d o da cin cout dim0 dim1 = .ok out ∧ out.dims = outDims da cout dim0 dim1 ∧ ∀ d ∈ out.dims, out.size d = outSize da cout dim1 d := by
  obtain ⟨f, hf, -, -, -, -, ⟨y, ay, fy⟩, ⟨z, az, fz⟩⟩ := flush_ok da cin cout dim0 dim1 h hc
  obtain ⟨m2, g2, -, p2, -⟩ := ay.flat (by omega)
  obtain ⟨m3, g3, -, q2, -⟩ := az.flat h.w1
  rw [fy] at g2; rw [fz] at g3
  simp only [Except.ok.injEq] at g2 g3
  rw [← g2] at p2
  rw [← g3] at q2
  rw [C21_cellave o hm he da cin cout dim0 dim1 f hf (by omega) (by omega)]
  exact regridWith_accepts _ (rowWise_cellave false) da cin cout dim0 dim1 h hc hne

-- the hypotheses are met by layouts whose rows are not paired correctly (C19): data (t, x, z), input depths (t, z)
example : ∃ out, regrid1d {} exDa exCinT exCout "z" "zo" = .ok out ∧ out.dims = outDims exDa exCout "z" "zo" ∧
    ∀ d ∈ out.dims, out.size d = outSize exDa exCout "zo" d :=
  C20_regrid1d_accepts {} _ .default ⟨_, rfl⟩ exDa exCinT exCout "z" "zo" C19_violated_1d.1 C19_violated_1d.2.1 (by decide +kernel)
-- refused: data (t, x, z) and output depths (q, zo)
example : regrid1d {} exDa exCinT (LArr.ofList ["q", "zo"] [1, 1] [some 0]) "z" "zo" = .error .xoaError :=
  C20_regrid1d_conflict {} _ _ _ _ _ ⟨"t", by decide, by decide, by decide⟩ ⟨"q", by decide, by decide, by decide⟩

end Xoa
