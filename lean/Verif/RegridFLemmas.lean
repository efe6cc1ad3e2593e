import Verif.RegridF
import Verif.RegridAcceptProps

/-! # The rows that `regrid1d` hands over to the interpolation, in any layout -/

namespace Xoa

theorem ravel_unravel (ns : List Nat) (k : Nat) (h : k < ns.prod) : InShape ns (unravel ns k) ∧ ravel ns (unravel ns k) = k := by
  induction ns generalizing k with
  | nil => simp at h; subst h; exact ⟨trivial, rfl⟩
  | cons n ns ih =>
    rw [List.prod_cons] at h
    have hp : 0 < ns.prod := by
      rcases Nat.eq_zero_or_pos ns.prod with h0 | h0
      · rw [h0] at h; omega
      · exact h0
    obtain ⟨h1, h2⟩ := ih (k % ns.prod) (Nat.mod_lt _ hp)
    refine ⟨⟨(Nat.div_lt_iff_lt_mul hp).2 h, h1⟩, ?_⟩
    show k / ns.prod * ns.prod + ravel ns (unravel ns (k % ns.prod)) = k
    rw [h2, Nat.mul_comm]
    exact Nat.div_add_mod k ns.prod

theorem InShape.length {ns is : List Nat} (h : InShape ns is) : is.length = ns.length := by
  induction ns generalizing is with
  | nil => cases is <;> simp_all [InShape]
  | cons n ns ih =>
    cases is with
    | nil => simp [InShape] at h
    | cons i is => simp [ih h.2]

theorem InShape.of_map (L : List String) (S pos : String → Nat) (h : InShape (L.map S) (L.map pos)) : ∀ d ∈ L, pos d < S d := by
  induction L with
  | nil => intro d hd; cases hd
  | cons x xs ih =>
    intro d hd
    rcases List.mem_cons.1 hd with rfl | hd
    · exact h.1
    · exact ih h.2 d hd

/-- each row of the flattened array is the row of the array through some position -/
theorem Aligned.rows {x x' : LArr V} {L w S} (h : Aligned x x' L w S) (hw : 0 < x.size w) (m : Mat) (hm : x'.flat2 = .ok m) (r : Nat) (hr : r < m.nx) :
    ∃ pos : String → Nat, (∀ d ∈ L, pos d < S d) ∧ ∀ j : Nat, j < x.size w → m.get (r : Nat) (j : Nat) = x.at (setPos pos w j) := by
  obtain ⟨m1, g1, n1, n2, r1⟩ := h.flat hw
  rw [hm] at g1
  simp only [Except.ok.injEq] at g1
  subst g1
  rw [n1] at hr
  obtain ⟨q1, q2⟩ := ravel_unravel _ r hr
  have e : L.map (look L (unravel (L.map S) r)) = unravel (L.map S) r := map_look L _ h.notMem.2 (by rw [q1.length, List.length_map])
  have hp : ∀ d ∈ L, look L (unravel (L.map S) r) d < S d := InShape.of_map L S _ (by rw [e]; exact q1)
  refine ⟨look L (unravel (L.map S) r), hp, fun j hj => ?_⟩
  have := r1 _ hp j hj
  rwa [e, q2] at this

/-- the position is inside the array, its index along `w` aside -/
def InsideBut (x : LArr V) (w : String) (pos : String → Nat) : Prop := ∀ d ∈ x.dims, d ≠ w → pos d < x.size d

/-- what the interpolation receives and what becomes of its result, in any accepted layout -/
theorem flush_rows (da cin cout : LArr V) (dim0 dim1 : String) (h : FlushIn da cin cout dim0 dim1) (hc : Compat da cout dim0 dim1)
    (hne : ∀ d ∈ outDims da cout dim0 dim1, 0 < outSize da cout dim1 d) :
    ∃ f, flush da cin cout dim0 dim1 = .ok f ∧
      f.daIn.ny = da.size dim0 ∧ f.coordIn.ny = cin.size dim0 ∧ f.coordOut.ny = cout.size dim1 ∧
      0 < f.coordIn.nx ∧ 0 < f.coordOut.nx ∧ f.coordOut.nx ≤ f.daIn.nx ∧
      (∀ r : Nat, r < f.daIn.nx → ∃ pos, InsideBut da dim0 pos ∧ ∀ j : Nat, j < da.size dim0 → f.daIn.get (r : Nat) (j : Nat) = da.at (setPos pos dim0 j)) ∧
      (∀ r : Nat, r < f.coordIn.nx → ∃ pos, InsideBut cin dim0 pos ∧ ∀ j : Nat, j < cin.size dim0 → f.coordIn.get (r : Nat) (j : Nat) = cin.at (setPos pos dim0 j)) ∧
      (∀ r : Nat, r < f.coordOut.nx → ∃ pos, InsideBut cout dim1 pos ∧ ∀ j : Nat, j < cout.size dim1 → f.coordOut.get (r : Nat) (j : Nat) = cout.at (setPos pos dim1 j)) ∧
      ∀ m : Mat, m.nx = max f.daIn.nx f.coordOut.nx → m.ny = f.coordOut.ny →
        ∃ out, getBack f m = .ok out ∧ out.dims = outDims da cout dim0 dim1 ∧ (∀ d ∈ out.dims, out.size d = outSize da cout dim1 d) ∧
          ∀ pos, (∀ d ∈ out.dims, pos d < out.size d) →
            let r := ravel ((dimY da cout dim1 ++ dimX da cout dim0 ++ dimC da cout dim0).map (sizeOf2 da cout)) ((dimY da cout dim1 ++ dimX da cout dim0 ++ dimC da cout dim0).map pos)
            r < f.daIn.nx ∧ out.at pos = m.get (r : Nat) (pos dim1 : Nat) ∧
              ∀ j : Nat, j < da.size dim0 → f.daIn.get (r : Nat) (j : Nat) = da.at (setPos pos dim0 j) := by
  obtain ⟨f, hf, hwd, hws, hfd, ⟨x, ax, fx⟩, ⟨y, ay, fy⟩, ⟨z, az, fz⟩⟩ := flush_ok da cin cout dim0 dim1 h hc
  have hcw : 0 < cin.size dim0 := by rw [h.csz _ h.c0]; exact h.w0
  obtain ⟨m1, g1, n1, n2, r1⟩ := ax.flat h.w0
  obtain ⟨m2, g2, p1, p2, r2⟩ := ay.flat hcw
  obtain ⟨m3, g3, q1, q2, r3⟩ := az.flat h.w1
  rw [fx] at g1; rw [fy] at g2; rw [fz] at g3
  simp only [Except.ok.injEq] at g1 g2 g3
  rw [← g1] at n1 n2 r1
  rw [← g2] at p1 p2
  rw [← g3] at q1 q2
  have hLm : ∀ d, d ∈ dimY da cout dim1 ++ dimX da cout dim0 ++ dimC da cout dim0 ↔
      (d ∈ da.dims ∧ d ≠ dim0) ∨ (d ∈ cout.dims ∧ d ≠ dim1 ∧ d ∉ da.dims) := by
    intro d
    simp only [dimX, dimY, dimC, List.mem_append, List.mem_filter, decide_eq_true_eq]
    tauto
  have hinL : ∀ pos : String → Nat, (∀ d ∈ outDims da cout dim0 dim1, pos d < outSize da cout dim1 d) →
      ∀ d ∈ dimY da cout dim1 ++ dimX da cout dim0 ++ dimC da cout dim0, pos d < sizeOf2 da cout d := by
    intro pos hpos d hd
    rw [hLm] at hd
    have hd1 : d ≠ dim1 := by
      rintro rfl
      rcases h.names with q | q
      · rw [q] at hd; tauto
      · tauto
    have hdo : d ∈ outDims da cout dim0 dim1 := by
      unfold outDims
      simp only [List.mem_append, List.mem_filter, decide_eq_true_eq, List.mem_map]
      rcases hd with hd | hd
      · exact Or.inr ⟨d, hd.1, by simp [hd.2]⟩
      · exact Or.inl hd
    have := hpos d hdo
    unfold outSize at this
    rw [if_neg hd1] at this
    exact this
  have hsubi : ∀ d ∈ dimY da cout dim1 ++ dimC da cout dim0 ++ dimZ da cin cout dim0, d ∈ dimY da cout dim1 ++ dimX da cout dim0 ++ dimC da cout dim0 := by
    intro d hd
    simp only [dimX, dimY, dimC, dimZ, List.mem_append, List.mem_filter, decide_eq_true_eq] at hd ⊢
    tauto
  have hsubo : ∀ d ∈ (if cout.dims.length > 1 then dimY da cout dim1 ++ dimC da cout dim0 ++ dimZ da cin cout dim0 else []),
      d ∈ dimY da cout dim1 ++ dimX da cout dim0 ++ dimC da cout dim0 := by
    intro d hd
    split at hd
    · exact hsubi d hd
    · cases hd
  have h0L := hinL (fun _ => 0) hne
  refine ⟨f, hf, n2, p2, q2, ?_, ?_, ?_, ?_, ?_, ?_, ?_⟩
  · rw [p1]; exact prod_map_pos _ _ (fun _ => 0) (fun d hd => h0L d (hsubi d hd))
  · rw [q1]; exact prod_map_pos _ _ (fun _ => 0) (fun d hd => h0L d (hsubo d hd))
  · rw [n1, q1]; exact prod_le_of_subset _ _ _ (fun _ => 0) az.notMem.2 hsubo h0L
  · intro r hr
    obtain ⟨pos, hp, e⟩ := ax.rows h.w0 _ fx r hr
    refine ⟨pos, fun d hd hd0 => ?_, e⟩
    have := hp d ((hLm d).2 (Or.inl ⟨hd, hd0⟩))
    unfold sizeOf2 at this
    rwa [if_pos hd] at this
  · intro r hr
    obtain ⟨pos, hp, e⟩ := ay.rows hcw _ fy r hr
    refine ⟨pos, fun d hd hd0 => ?_, e⟩
    have hda := h.csub d hd
    have := hp d (by
      simp only [dimX, dimY, dimC, dimZ, List.mem_append, List.mem_filter, decide_eq_true_eq]
      tauto)
    unfold sizeOf2 at this
    rw [if_pos hda] at this
    rwa [h.csz d hd]
  · intro r hr
    obtain ⟨pos, hp, e⟩ := az.rows h.w1 _ fz r hr
    refine ⟨pos, fun d hd hd1 => ?_, e⟩
    have hlen : cout.dims.length > 1 := by
      rcases hq : cout.dims with _ | ⟨a, _ | ⟨b, l⟩⟩
      · rw [hq] at hd; cases hd
      · rw [hq] at hd
        have h1 := h.d1
        rw [hq] at h1
        simp only [List.mem_singleton] at hd h1
        exact absurd (hd.trans h1.symm) hd1
      · simp
    have hd0 : d ∈ da.dims → d ≠ dim0 := by
      rintro _ rfl
      rcases h.names with q | q
      · exact hd1 q
      · exact q.2 hd
    have := hp d (by
      rw [if_pos hlen]
      simp only [dimX, dimY, dimC, dimZ, List.mem_append, List.mem_filter, decide_eq_true_eq]
      tauto)
    unfold sizeOf2 at this
    by_cases hda : d ∈ da.dims
    · rw [if_pos hda] at this
      rwa [← hc.size d hda (hd0 hda) hd]
    · rwa [if_neg hda] at this
  · intro m hm1 hm2
    have hle : f.coordOut.nx ≤ f.daIn.nx := by
      rw [n1, q1]; exact prod_le_of_subset _ _ _ (fun _ => 0) az.notMem.2 hsubo h0L
    obtain ⟨out, e, -, h2, h3, h4⟩ := getBack_ok da cin cout dim0 dim1 h hc f hf m (by omega) (by omega)
    refine ⟨out, e, h2, h3, fun pos hp => ?_⟩
    have hin := hinL pos (by
      intro d hd
      have hd : d ∈ out.dims := by rw [h2]; exact hd
      have := hp d hd
      rwa [h3 d hd] at this)
    refine ⟨?_, h4 pos hp, fun j hj => r1 pos hin j hj⟩
    rw [n1]
    exact ravel_lt _ _ (inShape_map _ _ _ hin)

end Xoa
