import Verif.FlushLemmas

namespace Xoa

/-- inputs of the flattening: well-formed arrays; the input coordinate is a coordinate of the data (its
dimensions are dimensions of the data, with the same sizes) and varies along the working dimension; when the two working
dimensions have different names, none is a dimension of the other array; working dimensions are not empty -/
structure FlushIn (da cin cout : LArr V) (dim0 dim1 : String) : Prop where
  okda : da.Ok
  okcin : cin.Ok
  okcout : cout.Ok
  d0 : dim0 ∈ da.dims
  d1 : dim1 ∈ cout.dims
  c0 : dim0 ∈ cin.dims
  csub : ∀ d ∈ cin.dims, d ∈ da.dims
  csz : ∀ d ∈ cin.dims, cin.size d = da.size d
  names : dim0 = dim1 ∨ (dim1 ∉ da.dims ∧ dim0 ∉ cout.dims)
  w0 : 0 < da.size dim0
  w1 : 0 < cout.size dim1

/-- compatibility of the other dimensions: one of the two arrays has all those of the other, and the shared ones
have the same size -/
structure Compat (da cout : LArr V) (dim0 dim1 : String) : Prop where
  sub : (∀ d ∈ da.dims, d ≠ dim0 → d ∈ cout.dims) ∨ (∀ d ∈ cout.dims, d ≠ dim1 → d ∈ da.dims)
  size : ∀ d ∈ da.dims, d ≠ dim0 → d ∈ cout.dims → da.size d = cout.size d

/-- other dimensions of the data only -/
def dimX (da cout : LArr V) (dim0 : String) : List String := da.dims.filter (fun d => d ≠ dim0 ∧ d ∉ cout.dims)
/-- other dimensions of both -/
def dimC (da cout : LArr V) (dim0 : String) : List String := da.dims.filter (fun d => d ≠ dim0 ∧ d ∈ cout.dims)
/-- other dimensions of the output coordinate only -/
def dimY (da cout : LArr V) (dim1 : String) : List String := cout.dims.filter (fun d => d ≠ dim1 ∧ d ∉ da.dims)
/-- dimensions of the input coordinate that the output coordinate has not -/
def dimZ (da cin cout : LArr V) (dim0 : String) : List String := (dimX da cout dim0).filter (fun d => d ∈ cin.dims)
/-- sizes of the other dimensions -/
def sizeOf2 (da cout : LArr V) (d : String) : Nat := if d ∈ da.dims then da.size d else cout.size d

theorem nodup_three' (A B C : List String) (ha : A.Nodup) (hb : B.Nodup) (hc : C.Nodup)
    (hab : ∀ d ∈ A, d ∉ B) (hac : ∀ d ∈ A, d ∉ C) (hbc : ∀ d ∈ B, d ∉ C) : (A ++ B ++ C).Nodup := by
  refine List.Nodup.append (List.Nodup.append ha hb (fun d h1 h2 => hab d h1 h2)) hc ?_
  intro d h1 h2
  rcases List.mem_append.1 h1 with h | h
  · exact hac d h h2
  · exact hbc d h h2

set_option maxHeartbeats 2000000 in
/-- result of the transpositions and broadcasts of `DimFlusher1D` -/
theorem flush_aligned (da cin cout : LArr V) (dim0 dim1 : String) (h : FlushIn da cin cout dim0 dim1)
    (hc : Compat da cout dim0 dim1) :
    ∃ da2 cin2 cout2 : LArr V,
      flush da cin cout dim0 dim1 = (do
        let mda ← da2.flat2
        let mci ← cin2.flat2
        let mco ← cout2.flat2
        Except.ok ⟨mda, mci, mco, da2.shape.dropLast ++ [cout2.size dim1], da2.dims.dropLast ++ [dim1],
          da.dims.map (fun d => if d = dim0 then dim1 else d)⟩) ∧
      Aligned da da2 (dimY da cout dim1 ++ dimX da cout dim0 ++ dimC da cout dim0) dim0 (sizeOf2 da cout) ∧
      Aligned cin cin2 (dimY da cout dim1 ++ dimC da cout dim0 ++ dimZ da cin cout dim0) dim0 (sizeOf2 da cout) ∧
      Aligned cout cout2 (if cout.dims.length > 1 then dimY da cout dim1 ++ dimC da cout dim0 ++ dimZ da cin cout dim0 else [])
        dim1 (sizeOf2 da cout) := by
  obtain ⟨hda, hcin, hcout, d0, d1, c0, csub, csz, names, w0, w1⟩ := h
  obtain ⟨hsub, hsz⟩ := hc
  have hX : ∀ d, d ∈ dimX da cout dim0 ↔ d ∈ da.dims ∧ d ≠ dim0 ∧ d ∉ cout.dims := by intro d; simp [dimX]
  have hC : ∀ d, d ∈ dimC da cout dim0 ↔ d ∈ da.dims ∧ d ≠ dim0 ∧ d ∈ cout.dims := by intro d; simp [dimC]
  have hY : ∀ d, d ∈ dimY da cout dim1 ↔ d ∈ cout.dims ∧ d ≠ dim1 ∧ d ∉ da.dims := by intro d; simp [dimY]
  have hZ : ∀ d, d ∈ dimZ da cin cout dim0 ↔ d ∈ da.dims ∧ d ≠ dim0 ∧ d ∉ cout.dims ∧ d ∈ cin.dims := by
    intro d; unfold dimZ; rw [List.mem_filter, hX]; simp [and_assoc]
  -- a shared name is not a working dimension
  have n01 : ∀ d ∈ da.dims, d ≠ dim0 → d ≠ dim1 := by
    rintro d hd h0 rfl
    rcases names with h | h
    · exact h0 h.symm
    · exact h.1 hd
  have n10 : ∀ d ∈ cout.dims, d ≠ dim1 → d ≠ dim0 := by
    rintro d hd h0 rfl
    rcases names with h | h
    · exact h0 h
    · exact h.2 hd
  have XY : dimX da cout dim0 = [] ∨ dimY da cout dim1 = [] := by
    rcases hsub with hs | hs
    · left
      rw [List.eq_nil_iff_forall_not_mem]
      intro d hd
      rw [hX] at hd
      exact hd.2.2 (hs d hd.1 hd.2.1)
    · right
      rw [List.eq_nil_iff_forall_not_mem]
      intro d hd
      rw [hY] at hd
      exact hd.2.2 (hs d hd.1 hd.2.1)
  have nX : (dimX da cout dim0).Nodup := hda.nodup.filter _
  have nC : (dimC da cout dim0).Nodup := hda.nodup.filter _
  have nY : (dimY da cout dim1).Nodup := hcout.nodup.filter _
  have nZ : (dimZ da cin cout dim0).Nodup := nX.filter _
  -- da'
  have eda : xrTranspose da (none :: (dimC da cout dim0 ++ [dim0]).map some) =
      .ok (da.permute (dimX da cout dim0 ++ dimC da cout dim0 ++ [dim0])) := by
    apply xrTranspose_ok
    · rw [if_neg (by simp)]
      have := flatMap_infix_ell da.dims [] (dimC da cout dim0 ++ [dim0])
      rw [List.map_nil, List.nil_append, List.nil_append, List.nil_append] at this
      rw [this, ← List.append_assoc]
      congr 2
      unfold dimX
      apply List.filter_congr
      intro d hd
      have := hC d
      clear hsub XY names
      simp only [decide_eq_decide, List.mem_append, List.mem_singleton]
      tauto
    · exact nodup_three' _ _ _ nX nC (by simp) (fun d h1 h2 => ((hX d).1 h1).2.2 ((hC d).1 h2).2.2)
        (fun d h1 h2 => ((hX d).1 h1).2.1 (by simpa using h2)) (fun d h1 h2 => ((hC d).1 h1).2.1 (by simpa using h2))
    · intro d
      have h1 := hX d
      have h2 := hC d
      simp only [List.mem_append, List.mem_singleton]
      constructor
      · rintro ((h | h) | h)
        · exact (h1.1 h).1
        · exact (h2.1 h).1
        · rw [h]; exact d0
      · intro h; tauto
  -- cout'
  have eco : xrTranspose cout (none :: (dimC da cout dim0 ++ [dim1]).map some) =
      .ok (cout.permute (dimY da cout dim1 ++ dimC da cout dim0 ++ [dim1])) := by
    apply xrTranspose_ok
    · rw [if_neg (by simp)]
      have := flatMap_infix_ell cout.dims [] (dimC da cout dim0 ++ [dim1])
      rw [List.map_nil, List.nil_append, List.nil_append, List.nil_append] at this
      rw [this, ← List.append_assoc]
      congr 2
      unfold dimY
      apply List.filter_congr
      intro d hd
      have := hC d
      have := n10 d hd
      clear hsub XY names
      simp only [decide_eq_decide, List.mem_append, List.mem_singleton]
      tauto
    · exact nodup_three' _ _ _ nY nC (by simp) (fun d h1 h2 => ((hY d).1 h1).2.2 ((hC d).1 h2).1)
        (fun d h1 h2 => ((hY d).1 h1).2.1 (by simpa using h2))
        (fun d h1 h2 => n01 d ((hC d).1 h1).1 ((hC d).1 h1).2.1 (by simpa using h2))
    · intro d
      have h1 := hY d
      have h2 := hC d
      simp only [List.mem_append, List.mem_singleton]
      constructor
      · rintro ((h | h) | h)
        · exact (h1.1 h).1
        · exact (h2.1 h).2.2
        · rw [h]; exact d1
      · intro h
        have := n10 d h
        tauto
  have ecd : da.dims.filter (fun d => d ∈ da.dims.filter (· ≠ dim0) ∧ d ∈ cout.dims.filter (· ≠ dim1) ∧ d ≠ dim0) = dimC da cout dim0 := by
    unfold dimC
    apply List.filter_congr
    intro d hd
    have := n01 d hd
    clear hsub XY names
    simp only [decide_eq_decide, List.mem_filter, decide_eq_true_eq]
    tauto
  -- notations for the intermediate arrays
  obtain ⟨da1, hda1⟩ : ∃ x, x = da.permute (dimX da cout dim0 ++ dimC da cout dim0 ++ [dim0]) := ⟨_, rfl⟩
  obtain ⟨co1, hco1⟩ : ∃ x, x = cout.permute (dimY da cout dim1 ++ dimC da cout dim0 ++ [dim1]) := ⟨_, rfl⟩
  have dda1 : da1.dims = dimX da cout dim0 ++ dimC da cout dim0 ++ [dim0] := by rw [hda1]; rfl
  have dco1 : co1.dims = dimY da cout dim1 ++ dimC da cout dim0 ++ [dim1] := by rw [hco1]; rfl
  obtain ⟨oda1, mda1, sda1, vda1⟩ := xrTranspose_at _ _ _ eda
  obtain ⟨oco1, mco1, sco1, vco1⟩ := xrTranspose_at _ _ _ eco
  rw [← hda1] at oda1 mda1 sda1 vda1
  rw [← hco1] at oco1 mco1 sco1 vco1
  obtain ⟨ci1, hci1⟩ : ∃ x, x = cin.permute (da1.dims.filter (· ∈ cin.dims)) := ⟨_, rfl⟩
  have dci1 : ci1.dims = da1.dims.filter (· ∈ cin.dims) := by rw [hci1]; rfl
  have mci1 : ∀ d, d ∈ ci1.dims ↔ d ∈ cin.dims := by
    intro d
    rw [dci1, List.mem_filter, mda1]
    have := csub d
    simp only [decide_eq_true_eq]
    tauto
  have vci1 : ∀ pos, ci1.at pos = cin.at pos := by
    intro pos
    rw [hci1]
    exact permute_at _ _ (fun d hd => by rw [← dci1]; exact (mci1 d).2 hd) pos
  have sci1 : ∀ d ∈ cin.dims, ci1.size d = cin.size d := by
    intro d hd
    rw [hci1]
    exact permute_size _ _ d (by rw [← dci1]; exact (mci1 d).2 hd)
  have oci1 : ci1.Ok := by
    rw [hci1]
    exact permute_ok _ _ (oda1.nodup.filter _)
  have dropda : da1.dims.dropLast = dimX da cout dim0 ++ dimC da cout dim0 := by rw [dda1]; simp
  have dropco : co1.dims.dropLast = dimY da cout dim1 ++ dimC da cout dim0 := by rw [dco1]; simp
  have S_da : ∀ d ∈ da.dims, sizeOf2 da cout d = da.size d := by intro d hd; simp [sizeOf2, hd]
  have S_co : ∀ d ∈ cout.dims, d ≠ dim1 → sizeOf2 da cout d = cout.size d := by
    intro d hd hn
    unfold sizeOf2
    split
    · rename_i hd'; exact hsz d hd' (n10 d hd hn) hd
    · rfl
  -- filters of the layouts
  have fM : co1.dims.filter (fun d => d ≠ dim0 ∧ d ≠ dim1) = dimY da cout dim1 ++ dimC da cout dim0 := by
    rw [dco1, List.filter_append]
    have e1 : [dim1].filter (fun d => decide (d ≠ dim0 ∧ d ≠ dim1)) = [] := by simp
    rw [e1, List.append_nil, List.filter_eq_self]
    intro d hd
    simp only [decide_eq_true_eq]
    rcases List.mem_append.1 hd with hd | hd
    · rw [hY] at hd; exact ⟨n10 d hd.1 hd.2.1, hd.2.1⟩
    · rw [hC] at hd; exact ⟨hd.2.1, n01 d hd.1 hd.2.1⟩
  have fZ : ci1.dims.filter (fun d => d ≠ dim0 ∧ d ≠ dim1 ∧ d ∉ co1.dims) = dimZ da cin cout dim0 := by
    rw [dci1, List.filter_filter, dda1, List.append_assoc, List.filter_append]
    have e1 : (dimC da cout dim0 ++ [dim0]).filter (fun d => decide (d ≠ dim0 ∧ d ≠ dim1 ∧ d ∉ co1.dims) && decide (d ∈ cin.dims)) = [] := by
      rw [List.filter_eq_nil_iff]
      intro d hd
      simp only [Bool.and_eq_true, decide_eq_true_eq, mco1]
      rcases List.mem_append.1 hd with hd | hd
      · rw [hC] at hd; clear hsub XY names; tauto
      · simp at hd; clear hsub XY names; tauto
    rw [e1, List.append_nil]
    unfold dimZ
    apply List.filter_congr
    intro d hd
    rw [hX] at hd
    have := n01 d hd.1 hd.2.1
    have := mco1 d
    by_cases h : d ∈ cin.dims <;> simp [h] <;> tauto
  refine ⟨if strictSub da1.dims.dropLast co1.dims.dropLast then da1.broadcastLike co1 dim0 dim1 else da1,
    if co1.dims.length > 1 then ci1.broadcastLike co1 dim0 dim1 else ci1,
    if co1.dims.length > 1 ∧ strictSub co1.dims.dropLast (if co1.dims.length > 1 then ci1.broadcastLike co1 dim0 dim1 else ci1).dims.dropLast
      then co1.broadcastLike (if co1.dims.length > 1 then ci1.broadcastLike co1 dim0 dim1 else ci1) dim0 dim1 else co1, ?_, ?_, ?_, ?_⟩
  · unfold flush
    simp only []
    rw [if_neg, ecd, if_neg]
    · rw [eda, eco, ← hda1, ← hco1, hci1]
      rfl
    · rintro ⟨d, hd, hne⟩
      rw [hC] at hd
      exact hne (hsz d hd.1 hd.2.1 hd.2.2)
    · rintro ⟨⟨a, ha1, ha2⟩, b, hb1, hb2⟩
      simp only [List.mem_filter, decide_eq_true_eq] at ha1 ha2 hb1 hb2
      rcases hsub with hs | hs
      · exact ha2 ⟨hs a ha1.1 ha1.2, n01 a ha1.1 ha1.2⟩
      · exact hb2 ⟨hs b hb1.1 hb1.2, n10 b hb1.1 hb1.2⟩
  · -- data
    split
    · rename_i hs
      have hYne : dimY da cout dim1 ≠ [] := by
        intro hY0
        obtain ⟨-, d, hd, hnd⟩ := hs
        rw [dropda] at hnd
        rw [dropco, hY0] at hd
        exact hnd (by simp at hd ⊢; tauto)
      have hX0 : dimX da cout dim0 = [] := by tauto
      have fN : da1.dims.filter (fun d => d ≠ dim0 ∧ d ≠ dim1 ∧ d ∉ co1.dims) = [] := by
        rw [List.filter_eq_nil_iff]
        intro d hd
        simp only [decide_eq_true_eq, mco1]
        rintro ⟨h1, -, h3⟩
        have : d ∈ dimX da cout dim0 := (hX d).2 ⟨(mda1 d).1 hd, h1, h3⟩
        rw [hX0] at this
        simp at this
      have hdims := broadcast_dims da1 co1 dim0 dim1 dim0 _ _ (Or.inl rfl) fM fN ((mda1 _).2 d0) (by
        rintro d hd (h | h)
        · exact h
        · by_contra hne; exact n01 d ((mda1 d).1 hd) hne h)
      refine ⟨⟨?_, broadcast_len _ _ _ _⟩, ?_, ?_, ?_, ?_⟩
      · rw [hdims]
        simp only [List.append_nil]
        exact nodup_three' _ _ _ nY nC (by simp) (fun d h1 h2 => ((hY d).1 h1).2.2 ((hC d).1 h2).1)
          (fun d h1 h2 => by simp at h2; rw [h2] at h1; exact ((hY _).1 h1).2.2 d0)
          (fun d h1 h2 => ((hC d).1 h1).2.1 (by simpa using h2))
      · rw [hdims, hX0]; simp
      · intro pos; rw [broadcast_at, vda1]
      · rw [broadcast_size _ _ _ _ _ (by rw [hdims]; simp), if_pos ((mda1 _).2 d0), sda1 _ d0]
      · intro d hd
        rw [broadcast_size _ _ _ _ _ (by rw [hdims]; rw [hX0] at hd; simp at hd ⊢; tauto)]
        split
        · rename_i hd'
          rw [sda1 d ((mda1 d).1 hd'), S_da d ((mda1 d).1 hd')]
        · rename_i hd'
          rw [mda1] at hd'
          simp only [List.mem_append, hX0, List.not_mem_nil, or_false] at hd
          rcases hd with hd | hd
          · rw [hY] at hd
            rw [sco1 d hd.1, S_co d hd.1 hd.2.1]
          · rw [hC] at hd; exact absurd hd.1 hd'
    · rename_i hs
      have hY0 : dimY da cout dim1 = [] := by
        by_contra hYne
        have hX0 : dimX da cout dim0 = [] := by tauto
        apply hs
        rw [dropda, dropco, hX0]
        refine ⟨by intro d hd; simp at hd ⊢; tauto, ?_⟩
        obtain ⟨d, hd⟩ := List.exists_mem_of_ne_nil _ hYne
        refine ⟨d, by simp [hd], ?_⟩
        simp only [List.nil_append]
        intro hd'
        exact ((hY d).1 hd).2.2 ((hC d).1 hd').1
      refine ⟨oda1, by rw [dda1, hY0]; simp, vda1, sda1 _ d0, ?_⟩
      intro d hd
      have hd' : d ∈ da.dims := by
        rw [hY0] at hd
        simp only [List.nil_append, List.mem_append] at hd
        rcases hd with hd | hd
        · exact ((hX d).1 hd).1
        · exact ((hC d).1 hd).1
      rw [sda1 d hd', S_da d hd']
  · -- input coordinate
    split
    · have hdims := broadcast_dims ci1 co1 dim0 dim1 dim0 _ _ (Or.inl rfl) fM fZ ((mci1 _).2 c0) (by
        rintro d hd (h | h)
        · exact h
        · by_contra hne; exact n01 d (csub d ((mci1 d).1 hd)) hne h)
      refine ⟨⟨?_, broadcast_len _ _ _ _⟩, hdims, ?_, ?_, ?_⟩
      · rw [hdims]
        have n3 := nodup_three' _ _ _ nY nC nZ (fun d h1 h2 => ((hY d).1 h1).2.2 ((hC d).1 h2).1)
          (fun d h1 h2 => ((hY d).1 h1).2.2 ((hZ d).1 h2).1) (fun d h1 h2 => ((hZ d).1 h2).2.2.1 ((hC d).1 h1).2.2)
        refine List.Nodup.append n3 (by simp) ?_
        intro d h1 h2
        simp only [List.mem_singleton] at h2
        subst h2
        simp only [List.mem_append] at h1
        rcases h1 with (h1 | h1) | h1
        · exact ((hY _).1 h1).2.2 d0
        · exact ((hC _).1 h1).2.1 rfl
        · exact ((hZ _).1 h1).2.1 rfl
      · intro pos; rw [broadcast_at, vci1]
      · rw [broadcast_size _ _ _ _ _ (by rw [hdims]; simp), if_pos ((mci1 _).2 c0), sci1 _ c0]
      · intro d hd
        rw [broadcast_size _ _ _ _ _ (by rw [hdims]; exact List.mem_append_left _ hd)]
        split
        · rename_i hd'
          rw [mci1] at hd'
          rw [sci1 d hd', csz d hd', S_da d (csub d hd')]
        · rename_i hd'
          rw [mci1] at hd'
          simp only [List.mem_append] at hd
          rcases hd with (hd | hd) | hd
          · rw [hY] at hd
            rw [sco1 d hd.1, S_co d hd.1 hd.2.1]
          · rw [hC] at hd
            rw [sco1 d hd.2.2, S_co d hd.2.2 (n01 d hd.1 hd.2.1)]
          · exact absurd ((hZ d).1 hd).2.2.2 hd'
    · rename_i hlen
      have hYC : dimY da cout dim1 = [] ∧ dimC da cout dim0 = [] := by
        rw [dco1] at hlen
        simp at hlen
        constructor <;> (rw [← List.length_eq_zero_iff]; omega)
      refine ⟨oci1, ?_, vci1, sci1 _ c0, ?_⟩
      · rw [dci1, dda1, hYC.1, hYC.2]
        simp [List.filter_append, c0, dimZ]
      · intro d hd
        rw [hYC.1, hYC.2] at hd
        simp only [List.nil_append] at hd
        rw [hZ] at hd
        rw [sci1 d hd.2.2.2, csz d hd.2.2.2, S_da d hd.1]
  · -- output coordinate
    have hlen : co1.dims.length = cout.dims.length := by
      have h1 := oco1.nodup
      have h2 := hcout.nodup
      exact List.Perm.length_eq ((List.perm_ext_iff_of_nodup h1 h2).2 mco1)
    rw [hlen]
    by_cases hl : cout.dims.length > 1
    · simp only [hl, if_true, true_and]
      have hdims := broadcast_dims ci1 co1 dim0 dim1 dim0 _ _ (Or.inl rfl) fM fZ ((mci1 _).2 c0) (by
        rintro d hd (h | h)
        · exact h
        · by_contra hne; exact n01 d (csub d ((mci1 d).1 hd)) hne h)
      have n3 := nodup_three' _ _ _ nY nC nZ (fun d h1 h2 => ((hY d).1 h1).2.2 ((hC d).1 h2).1)
          (fun d h1 h2 => ((hY d).1 h1).2.2 ((hZ d).1 h2).1) (fun d h1 h2 => ((hZ d).1 h2).2.2.1 ((hC d).1 h1).2.2)
      have nd1 : dim1 ∉ dimY da cout dim1 ++ dimC da cout dim0 ++ dimZ da cin cout dim0 := by
        intro h1
        simp only [List.mem_append] at h1
        rcases h1 with (h1 | h1) | h1
        · exact ((hY _).1 h1).2.1 rfl
        · exact n01 _ ((hC _).1 h1).1 ((hC _).1 h1).2.1 rfl
        · exact n01 _ ((hZ _).1 h1).1 ((hZ _).1 h1).2.1 rfl
      obtain ⟨ci2, hci2⟩ : ∃ x, x = ci1.broadcastLike co1 dim0 dim1 := ⟨_, rfl⟩
      rw [← hci2] at hdims
      have sci2 : ∀ d ∈ dimZ da cin cout dim0, ci2.size d = da.size d := by
        intro d hd
        have hmem : d ∈ ci2.dims := by rw [hdims]; simp [hd]
        rw [hci2] at hmem ⊢
        rw [broadcast_size _ _ _ _ _ hmem]
        have hd := (hZ d).1 hd
        rw [if_pos ((mci1 d).2 hd.2.2.2), sci1 d hd.2.2.2, csz d hd.2.2.2]
      rw [← hci2]
      split
      · have fM2 : ci2.dims.filter (fun d => d ≠ dim0 ∧ d ≠ dim1) = dimY da cout dim1 ++ dimC da cout dim0 ++ dimZ da cin cout dim0 := by
          rw [hdims, List.filter_append]
          have e1 : [dim0].filter (fun d => decide (d ≠ dim0 ∧ d ≠ dim1)) = [] := by simp
          rw [e1, List.append_nil, List.filter_eq_self]
          intro d hd
          simp only [decide_eq_true_eq]
          simp only [List.mem_append] at hd
          rcases hd with (hd | hd) | hd
          · rw [hY] at hd; exact ⟨n10 d hd.1 hd.2.1, hd.2.1⟩
          · rw [hC] at hd; exact ⟨hd.2.1, n01 d hd.1 hd.2.1⟩
          · rw [hZ] at hd; exact ⟨hd.2.1, n01 d hd.1 hd.2.1⟩
        have fN2 : co1.dims.filter (fun d => d ≠ dim0 ∧ d ≠ dim1 ∧ d ∉ ci2.dims) = [] := by
          rw [List.filter_eq_nil_iff]
          intro d hd
          simp only [decide_eq_true_eq]
          rintro ⟨-, h2, h3⟩
          apply h3
          rw [hdims]
          rw [dco1] at hd
          simp only [List.mem_append, List.mem_singleton] at hd ⊢
          tauto
        have hd2 := broadcast_dims co1 ci2 dim0 dim1 dim1 _ _ (Or.inr rfl) fM2 fN2 ((mco1 _).2 d1) (by
          rintro d hd (h | h)
          · by_contra hne; exact n10 d ((mco1 d).1 hd) hne h
          · exact h)
        simp only [List.append_nil] at hd2
        refine ⟨⟨?_, broadcast_len _ _ _ _⟩, hd2, ?_, ?_, ?_⟩
        · rw [hd2]
          exact List.Nodup.append n3 (by simp) (by intro d h1 h2; simp only [List.mem_singleton] at h2; subst h2; exact nd1 h1)
        · intro pos; rw [broadcast_at, vco1]
        · rw [broadcast_size _ _ _ _ _ (by rw [hd2]; simp), if_pos ((mco1 _).2 d1), sco1 _ d1]
        · intro d hd
          rw [broadcast_size _ _ _ _ _ (by rw [hd2]; exact List.mem_append_left _ hd)]
          have hne : d ≠ dim1 := by rintro rfl; exact nd1 hd
          split
          · rename_i hd'
            rw [mco1] at hd'
            rw [sco1 d hd', S_co d hd' hne]
          · rename_i hd'
            rw [mco1] at hd'
            simp only [List.mem_append] at hd
            rcases hd with (hd | hd) | hd
            · exact absurd ((hY d).1 hd).1 hd'
            · exact absurd ((hC d).1 hd).2.2 hd'
            · rw [sci2 d hd, S_da d ((hZ d).1 hd).1]
      · rename_i hs
        have hZ0 : dimZ da cin cout dim0 = [] := by
          by_contra hne
          apply hs
          rw [dropco, hdims]
          refine ⟨by intro d hd; simp at hd ⊢; tauto, ?_⟩
          obtain ⟨d, hd⟩ := List.exists_mem_of_ne_nil _ hne
          refine ⟨d, by simp [hd], ?_⟩
          rw [List.mem_append, hY, hC]
          have := (hZ d).1 hd
          tauto
        refine ⟨oco1, by rw [dco1, hZ0]; simp, vco1, sco1 _ d1, ?_⟩
        intro d hd
        have hne : d ≠ dim1 := by rintro rfl; exact nd1 hd
        have hdc : d ∈ cout.dims := by
          rw [hZ0] at hd
          simp only [List.append_nil, List.mem_append] at hd
          rcases hd with hd | hd
          · exact ((hY d).1 hd).1
          · exact ((hC d).1 hd).2.2
        rw [sco1 d hdc, S_co d hdc hne]
    · simp only [hl, false_and, if_false]
      have hYC : dimY da cout dim1 = [] ∧ dimC da cout dim0 = [] := by
        rw [← hlen, dco1] at hl
        simp at hl
        constructor <;> (rw [← List.length_eq_zero_iff]; omega)
      refine ⟨oco1, by rw [dco1, hYC.1, hYC.2]; simp, vco1, sco1 _ d1, by simp⟩

end Xoa
