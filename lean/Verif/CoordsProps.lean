import Verif.CoordsLemmas

namespace Xoa

/-! ## C17: named transposition -/

/-- the names of the result that come from the request: dropped when the array has no such dimension in
`compat` mode, kept in the modes `insert` and `resize` -/
def wanted {α} (a : LArr α) (mode : TMode) (ds : List String) : List String :=
  if mode = .compat then ds.filter (fun d => d ∈ a.dims) else ds

theorem filter_kept {α} (a : LArr α) (mode : TMode) (hm : mode ≠ .classic) (ds : List String) :
    (ds.map some).filter (keptDim a mode) = (wanted a mode ds).map some := by
  rw [List.filter_map]
  unfold wanted
  congr 1
  split
  · rename_i h
    subst h
    apply List.filter_congr
    intro d _
    simp [keptDim]
  · rename_i h
    rw [List.filter_eq_self]
    intro d _
    simp only [Function.comp, keptDim]
    cases mode <;> simp_all

theorem mem_wanted {α} (a : LArr α) (mode : TMode) (hm : mode ≠ .classic) (ds : List String) (d : String) :
    d ∈ wanted a mode ds ↔ d ∈ ds ∧ (d ∈ a.dims ∨ mode = .insert ∨ mode = .resize) := by
  unfold wanted
  cases mode <;> simp_all

theorem wanted_append {α} (a : LArr α) (mode : TMode) (l l' : List String) :
    wanted a mode (l ++ l') = wanted a mode l ++ wanted a mode l' := by
  unfold wanted; split <;> simp

theorem wanted_nodup {α} (a : LArr α) (mode : TMode) (ds : List String) (h : ds.Nodup) : (wanted a mode ds).Nodup := by
  unfold wanted
  split
  · exact h.filter _
  · exact h

/-- the expanded array -/
theorem expanded_spec {α} (a : LArr α) (ha : a.Ok) (mode : TMode) (hm : mode ≠ .classic) (sizes : String → Option Nat)
    (dims : List (Option String)) (ds : List String) (hds : ∀ d, some d ∈ dims ↔ d ∈ ds)
    (s : List (Option String) × List (String × Nat) × Bool) (hs : ScanInv a mode sizes dims s) :
    let b := if s.2.1 = [] then a else a.expandDims s.2.1
    b.Ok ∧ (∀ d, d ∈ b.dims ↔ d ∈ a.dims ∨ d ∈ wanted a mode ds) ∧
    b.dims.filter (fun d => d ∉ wanted a mode ds) = a.dims.filter (fun d => d ∉ ds) ∧
    (∀ pos, b.at pos = a.at pos) ∧ (∀ d ∈ a.dims, b.size d = a.size d) ∧
    ∀ d ∈ wanted a mode ds, d ∉ a.dims → b.size d = newSize mode sizes d := by
  intro b
  have hb : b = a.expandDims s.2.1 := by
    show (if s.2.1 = [] then a else a.expandDims s.2.1) = _
    split
    · rename_i h; rw [h]; rfl
    · rfl
  rw [hb]
  have hdis : ∀ d ∈ s.2.1.map (·.1), d ∉ a.dims := fun d hd => ((hs.names d).1 hd).2.1
  have hnew : ∀ d, d ∈ s.2.1.map (·.1) ↔ d ∈ wanted a mode ds ∧ d ∉ a.dims := by
    intro d
    rw [hs.names, hds, mem_wanted a mode hm]
    tauto
  refine ⟨expand_ok a ha _ hs.nodup hdis, ?_, ?_, fun pos => expand_at a _ pos, ?_, ?_⟩
  · intro d
    simp only [LArr.expandDims, List.mem_append]
    rw [hnew]
    tauto
  · simp only [LArr.expandDims, List.filter_append]
    have h1 : (s.2.1.map (·.1)).filter (fun d => decide (d ∉ wanted a mode ds)) = [] := by
      rw [List.filter_eq_nil_iff]
      intro d hd
      have := (hnew d).1 hd
      simp [this.1]
    rw [h1, List.nil_append]
    apply List.filter_congr
    intro d hd
    have := mem_wanted a mode hm ds d
    simp only [hd, true_or, and_true] at this
    simp [this]
  · intro d hd
    exact expand_size_old a _ d (fun h => hdis d h hd)
  · intro d hd hn
    exact expand_size_new a _ (newSize mode sizes) d ((hnew d).2 ⟨hd, hn⟩) hs.size

/-- what a transposition must give: the dimensions `full`, the same values at the same named positions,
the same sizes, and the given size for the new dimensions -/
structure Transposed {α} (a r : LArr α) (full : List String) (newsize : String → Nat) : Prop where
  ok : r.Ok
  dims : r.dims = full
  vals : ∀ pos, r.at pos = a.at pos
  sizes : ∀ d ∈ a.dims, d ∈ full ∧ r.size d = a.size d
  new : ∀ d ∈ full, d ∉ a.dims → r.size d = newsize d

theorem finish {α} (a b : LArr α) (mode : TMode) (sizes : String → Option Nat) (full ds : List String)
    (h1 : ∀ d, d ∈ b.dims ↔ d ∈ a.dims ∨ d ∈ wanted a mode ds)
    (h3 : ∀ pos, b.at pos = a.at pos) (h4 : ∀ d ∈ a.dims, b.size d = a.size d)
    (h5 : ∀ d ∈ wanted a mode ds, d ∉ a.dims → b.size d = newSize mode sizes d)
    (hn : full.Nodup) (hm : ∀ d, d ∈ full ↔ d ∈ b.dims) : Transposed a (b.permute full) full (newSize mode sizes) := by
  refine ⟨permute_ok _ _ hn, rfl, ?_, ?_, ?_⟩
  · intro pos
    rw [permute_at b full (fun d hd => (hm d).2 hd), h3]
  · intro d hd
    have : d ∈ full := (hm d).2 ((h1 d).2 (Or.inl hd))
    exact ⟨this, by rw [permute_size b full d this, h4 d hd]⟩
  · intro d hd hnd
    rw [permute_size b full d hd]
    exact h5 d (by have := (h1 d).1 ((hm d).1 hd); tauto) hnd

theorem nodup_three {α} (a : LArr α) (ha : a.Ok) (mode : TMode) (hm : mode ≠ .classic) (pre post : List String)
    (hn : (pre ++ post).Nodup) :
    (wanted a mode pre ++ a.dims.filter (fun d => d ∉ pre ++ post) ++ wanted a mode post).Nodup := by
  have h := List.nodup_append.1 hn
  rw [List.append_assoc]
  refine List.Nodup.append (wanted_nodup a mode pre h.1) (List.Nodup.append (ha.nodup.filter _) (wanted_nodup a mode post h.2.1) ?_) ?_
  · intro d h1 h2
    rw [mem_wanted a mode hm] at h2
    simp at h1
    exact h1.2.2 h2.1
  · intro d h1 h2
    rw [mem_wanted a mode hm] at h1
    rcases List.mem_append.1 h2 with h2 | h2
    · simp at h2
      exact h2.2.1 h1.1
    · rw [mem_wanted a mode hm] at h2
      exact h.2.2 d h1.1 d h2.1 rfl

/-- C17: the size of a new dimension: in the mode `resize` the size given by the caller, if any; else 1 -/
def askedSize : TMode → (String → Option Nat) → String → Nat
  | .resize, sizes, d => (sizes d).getD 1
  | _, _, _ => 1

theorem newSize_asked : newSize = askedSize := by
  funext m s d
  cases m <;> simp [newSize, askedSize]

/-- C17, request without `Ellipsis`: the result has the dimensions that were not named, in their relative order,
then the named ones in the order of the request; new dimensions have size 1 (`insert`) or the given size
(`resize`); values are kept at every named position. -/
theorem C17_transpose {α} (a : LArr α) (ha : a.Ok) (ds : List String) (hn : ds.Nodup) (sizes : String → Option Nat)
    (mode : TMode) (hm : mode ≠ .classic) :
    ∃ r, transposeTo a (ds.map some) sizes mode = .ok r ∧
      Transposed a r (a.dims.filter (fun d => d ∉ ds) ++ wanted a mode ds) (askedSize mode sizes) := by
  rw [← newSize_asked]
  unfold transposeTo
  rw [if_neg hm]
  have hs := scan_inv a mode sizes (ds.map some)
  generalize (ds.map some).foldl (transposeStep a mode sizes) ([], [], false) = s at hs
  dsimp only
  have hds : ∀ d, some d ∈ ds.map some ↔ d ∈ ds := fun d => by simp
  obtain ⟨b1, b2, b3, b4, b5, b6⟩ := expanded_spec a ha mode hm sizes (ds.map some) ds hds s hs
  generalize (if s.2.1 = [] then a else a.expandDims s.2.1) = b at b1 b2 b3 b4 b5 b6
  have ho : s.1 = (wanted a mode ds).map some := by rw [hs.odims, filter_kept a mode hm]
  have he : s.2.2 = false := by
    cases h : s.2.2 with
    | false => rfl
    | true => have := hs.ell.1 h; simp at this
  rw [ho]
  have hfn : (a.dims.filter (fun d => d ∉ ds) ++ wanted a mode ds).Nodup := by
    have := nodup_three a ha mode hm [] ds (by simpa using hn)
    simpa [wanted] using this
  have hfm : ∀ d, d ∈ a.dims.filter (fun d => d ∉ ds) ++ wanted a mode ds ↔ d ∈ b.dims := by
    intro d
    rw [b2, List.mem_append]
    have := mem_wanted a mode hm ds d
    simp only [List.mem_filter, decide_eq_true_eq]
    tauto
  refine ⟨b.permute (a.dims.filter (fun d => d ∉ ds) ++ wanted a mode ds), ?_, finish a b mode sizes _ ds b2 b4 b5 b6 hfn hfm⟩
  apply xrTranspose_ok _ _ _ _ hfn hfm
  split_ifs with hc h0 h0
  · simp at h0
  · have := flatMap_infix_ell b.dims [] (wanted a mode ds)
    simp only [List.map_nil, List.nil_append] at this
    rw [this, b3]
  · -- no name was requested and the array has no dimension
    have hw : wanted a mode ds = [] := by simpa using h0
    have hbd : b.dims = [] := by
      by_contra hne
      obtain ⟨x, hx⟩ := List.exists_mem_of_ne_nil _ hne
      apply hc
      exact ⟨he, by simp [hw], x, hx, by simp [hw]⟩
    have : a.dims.filter (fun d => d ∉ ds) = [] := by rw [← b3, hbd]; rfl
    rw [hbd, hw, this]; rfl
  · have hall : ∀ x ∈ b.dims, x ∈ wanted a mode ds := by
      intro x hx
      by_contra hne
      apply hc
      refine ⟨he, ?_, x, hx, by simpa using hne⟩
      intro d hd
      obtain ⟨y, hy, rfl⟩ := List.mem_map.1 hd
      exact ⟨y, (b2 y).2 (Or.inr hy), rfl⟩
    have : a.dims.filter (fun d => d ∉ ds) = [] := by
      rw [← b3, List.filter_eq_nil_iff]
      intro x hx
      simp [hall x hx]
    rw [flatMap_infix_some, this, List.nil_append]

/-- C17, request with one `Ellipsis`: it stands for the dimensions that were not named, in their relative order. -/
theorem C17_transpose_ellipsis {α} (a : LArr α) (ha : a.Ok) (pre post : List String) (hn : (pre ++ post).Nodup)
    (sizes : String → Option Nat) (mode : TMode) (hm : mode ≠ .classic) :
    ∃ r, transposeTo a (pre.map some ++ none :: post.map some) sizes mode = .ok r ∧
      Transposed a r (wanted a mode pre ++ a.dims.filter (fun d => d ∉ pre ++ post) ++ wanted a mode post)
        (askedSize mode sizes) := by
  rw [← newSize_asked]
  unfold transposeTo
  rw [if_neg hm]
  have hs := scan_inv a mode sizes (pre.map some ++ none :: post.map some)
  generalize (pre.map some ++ none :: post.map some).foldl (transposeStep a mode sizes) ([], [], false) = s at hs
  dsimp only
  have hds : ∀ d, some d ∈ pre.map some ++ none :: post.map some ↔ d ∈ pre ++ post := fun d => by simp
  obtain ⟨b1, b2, b3, b4, b5, b6⟩ := expanded_spec a ha mode hm sizes _ (pre ++ post) hds s hs
  generalize (if s.2.1 = [] then a else a.expandDims s.2.1) = b at b1 b2 b3 b4 b5 b6
  have ho : s.1 = (wanted a mode pre).map some ++ none :: (wanted a mode post).map some := by
    have hk : keptDim a mode none = true := rfl
    rw [hs.odims, List.filter_append, filter_kept a mode hm, List.filter_cons, if_pos hk, filter_kept a mode hm]
  have he : s.2.2 = true := hs.ell.2 (by simp)
  rw [if_neg (by simp [he])]
  rw [ho]
  have hfn := nodup_three a ha mode hm pre post hn
  have hfm : ∀ d, d ∈ wanted a mode pre ++ a.dims.filter (fun d => d ∉ pre ++ post) ++ wanted a mode post ↔ d ∈ b.dims := by
    intro d
    rw [b2, List.mem_append, List.mem_append, wanted_append, List.mem_append]
    have h1 := mem_wanted a mode hm pre d
    have h2 := mem_wanted a mode hm post d
    simp only [List.mem_filter, decide_eq_true_eq, List.mem_append]
    tauto
  refine ⟨b.permute _, ?_, finish a b mode sizes _ (pre ++ post) b2 b4 b5 b6 hfn hfm⟩
  apply xrTranspose_ok _ _ _ _ hfn hfm
  rw [if_neg (by simp), flatMap_infix_ell, ← wanted_append, b3]

/-- C17: when the requested dimensions are those of the array, the four modes agree. -/
theorem C17_mode_independent {α} (a : LArr α) (ds : List String) (hn : ds.Nodup)
    (hd : ∀ d, d ∈ ds ↔ d ∈ a.dims) (sizes : String → Option Nat) (mode : TMode) :
    transposeTo a (ds.map some) sizes mode = .ok (a.permute ds) := by
  have hx : xrTranspose a (ds.map some) = .ok (a.permute ds) := by
    apply xrTranspose_ok _ _ _ _ hn hd
    by_cases hne : ds = []
    · have : a.dims = [] := by
        by_contra h
        obtain ⟨x, hx⟩ := List.exists_mem_of_ne_nil _ h
        have := (hd x).2 hx
        rw [hne] at this
        simp at this
      rw [hne, this]; rfl
    · rw [if_neg (by simpa using hne), flatMap_infix_some]
  by_cases hm : mode = .classic
  · subst hm
    unfold transposeTo
    rw [if_pos rfl, hx]
  · unfold transposeTo
    rw [if_neg hm]
    have hs := scan_inv a mode sizes (ds.map some)
    generalize (ds.map some).foldl (transposeStep a mode sizes) ([], [], false) = s at hs
    dsimp only
    have hnew : s.2.1 = [] := by
      by_contra hne'
      obtain ⟨x, hx'⟩ := List.exists_mem_of_ne_nil _ hne'
      have := (hs.names x.1).1 (List.mem_map_of_mem (f := (·.1)) hx')
      exact this.2.1 ((hd _).1 (by simpa using this.1))
    have ho : s.1 = ds.map some := by
      rw [hs.odims, filter_kept a mode hm]
      unfold wanted
      split
      · congr 1
        rw [List.filter_eq_self]
        intro d hd'
        simp [(hd d).1 hd']
      · rfl
    rw [if_pos hnew, ho, if_neg, hx]
    rintro ⟨-, -, x, hx', hx2⟩
    exact hx2 (by simpa using (hd x).2 hx')

/-- C17, `classic` mode: the request must name exactly the dimensions of the array, otherwise it is refused. -/
theorem C17_classic {α} (a : LArr α) (ds : List String) (hn : ds.Nodup) (hne : ds ≠ []) (sizes : String → Option Nat) :
    transposeTo a (ds.map some) sizes .classic = (open Classical in if ∀ d, d ∈ ds ↔ d ∈ a.dims then .ok (a.permute ds) else .error .valueError) := by
  split
  · rename_i hd
    exact C17_mode_independent a ds hn hd sizes .classic
  · rename_i hd
    unfold transposeTo xrTranspose
    have h0 : ds.map some ≠ [] := by simpa using hne
    simp only [if_true, if_neg h0, flatMap_infix_some]
    rw [if_neg]
    rintro ⟨-, h1, h2⟩
    exact hd (fun d => ⟨h1 d, h2 d⟩)

/-- C17: a name requested twice is refused, in every mode, provided that it survives the selection. -/
theorem C17_duplicate_refused {α} (a : LArr α) (d : String) (hd : d ∈ a.dims) (l1 l2 l3 : List (Option String))
    (sizes : String → Option Nat) (mode : TMode) :
    transposeTo a (l1 ++ some d :: l2 ++ some d :: l3) sizes mode = .error .valueError := by
  have hx : ∀ (b : LArr α) (m1 m2 m3 : List (Option String)), xrTranspose b (m1 ++ some d :: m2 ++ some d :: m3) = .error .valueError := by
    intro b m1 m2 m3
    unfold xrTranspose
    have hne : m1 ++ some d :: m2 ++ some d :: m3 ≠ [] := by simp
    simp only [if_neg hne]
    rw [if_neg]
    rintro ⟨h, -, -⟩
    rw [List.flatMap_append, List.flatMap_append, List.flatMap_cons, List.flatMap_cons] at h
    simp only [infixOne, List.append_assoc] at h
    have h2 := (List.nodup_append.1 h).2.1
    simp only [List.singleton_append, List.nodup_cons] at h2
    exact h2.1 (by simp)
  by_cases hm : mode = .classic
  · subst hm; unfold transposeTo; rw [if_pos rfl, hx]
  · unfold transposeTo
    rw [if_neg hm]
    have hs := scan_inv a mode sizes (l1 ++ some d :: l2 ++ some d :: l3)
    generalize (l1 ++ some d :: l2 ++ some d :: l3).foldl (transposeStep a mode sizes) ([], [], false) = s at hs
    dsimp only
    have hk : keptDim a mode (some d) = true := by simp [keptDim, hd]
    have ho := hs.odims
    rw [List.filter_append, List.filter_append, List.filter_cons, if_pos hk, List.filter_cons, if_pos hk] at ho
    rw [ho]
    split_ifs
    · have := hx (a) (none :: l1.filter (keptDim a mode)) (l2.filter (keptDim a mode)) (l3.filter (keptDim a mode))
      simpa using this
    · exact hx _ _ _ _
    · have := hx (a.expandDims s.2.1) (none :: l1.filter (keptDim a mode)) (l2.filter (keptDim a mode)) (l3.filter (keptDim a mode))
      simpa using this
    · exact hx _ _ _ _

def exArr : LArr Nat := ⟨["y", "x", "t"], [2, 3, 4], fun idx => ravel [2, 3, 4] idx⟩

example : exArr.Ok := ⟨by decide, rfl⟩
-- the examples of the documentation of `transpose`, xoa/coords.py:237-249
example : ((transposeTo exArr [some "m", some "y", some "x", some "z"] (fun _ => none) .insert).toOption.map
    (fun r => (r.dims, r.shape))) = some (["t", "m", "y", "x", "z"], [4, 1, 2, 3, 1]) := by decide +kernel
example : ((transposeTo exArr [some "m", some "y", some "x"] (fun d => if d = "m" then some 10 else none) .resize).toOption.map
    (fun r => (r.dims, r.shape, r.val [3, 7, 1, 2]))) = some (["t", "m", "y", "x"], [4, 10, 2, 3], exArr.val [1, 2, 3]) := by decide +kernel
example : ((transposeTo exArr [some "m", some "y", some "x"] (fun _ => none) .compat).toOption.map (fun r => r.dims)) =
    some ["t", "y", "x"] := by decide +kernel

end Xoa
