import Mathlib.Data.Rat.Floor
import Verif.FilterProps

namespace Xoa

/-! ## C27: kernels -/

theorem inShape_ones (m : Nat) (idx : List Nat) (h : InShape (List.replicate m 1) idx) : idx = List.replicate m 0 := by
  induction m generalizing idx with
  | zero => cases idx <;> simp_all [InShape]
  | succ m ih =>
    cases idx with
    | nil => simp [List.replicate_succ, InShape] at h
    | cons i is =>
      rw [List.replicate_succ] at h ⊢
      obtain ⟨h1, h2⟩ := h
      rw [ih is h2]
      congr 1
      omega

/-- merging a 1-D kernel with a kernel whose trailing sizes are 1 -/
theorem tensorMerge_ones (k : Nd) (v : List ℚ) (n m : Nat) (h : k.shape = n :: List.replicate m 1) :
    ∃ k', tensorMerge k v = .ok k' ∧ k'.shape = n :: (List.replicate m 1 ++ [v.length]) ∧
      ∀ i j, k'.val (i :: (List.replicate m 0 ++ [j])) = k.val (i :: List.replicate m 0) * v.getD j 0 := by
  unfold tensorMerge
  rw [h]
  cases m with
  | zero =>
    refine ⟨_, rfl, rfl, ?_⟩
    intro i j
    rfl
  | succ m =>
    have h1 : (List.replicate (m + 1) 1 : List Nat).getLastD 0 = 1 := by
      rw [List.replicate_succ']
      simp
    have h2 : (List.replicate (m + 1) 1 : List Nat).dropLast = List.replicate m 1 := by
      rw [List.replicate_succ']; simp
    have e : (List.replicate (m + 1) 1 : List Nat) = 1 :: List.replicate m 1 := rfl
    rw [e] at h1 h2 ⊢
    dsimp only
    rw [if_neg (by rw [h1]; simp), h2]
    refine ⟨_, rfl, by simp, ?_⟩
    intro i j
    dsimp only
    have g1 : (i :: (List.replicate (m + 1) 0 ++ [j])).headD 0 = i := rfl
    have g2 : ((i :: (List.replicate (m + 1) 0 ++ [j])).drop 2).dropLast ++ [0] = List.replicate (m + 1) 0 := by
      simp only [List.replicate_succ, List.cons_append, List.drop_succ_cons, List.drop_zero, List.dropLast_concat]
      rw [← List.replicate_succ', List.replicate_succ]
    have g3 : (i :: (List.replicate (m + 1) 0 ++ [j])).getLastD 0 = j := by
      rw [← List.cons_append, List.getLastD_concat]
    rw [g1, List.cons_append, g2, g3]

/-- a kernel that is not 1-D and whose last size is not 1 cannot be merged -/
theorem tensorMerge_fails (k : Nd) (v : List ℚ) (n : Nat) (ns : List Nat) (h : k.shape = n :: ns) (h1 : ns ≠ []) (h2 : ns.getLastD 0 ≠ 1) :
    tensorMerge k v = .error .valueError := by
  unfold tensorMerge
  rw [h]
  cases ns with
  | nil => exact absurd rfl h1
  | cons a as =>
    dsimp only
    rw [if_pos h2]

/-- `v` is the 1-D kernel of the specification `s`: an integer size `n` gives the window of size `n`; a float without decimals,
at least 2, that size with the two ends filled; a float with decimals, the window of its integer part with a filled end on each side; a list, itself. -/
inductive Kernel1dOf (window : Nat → List ℚ) (fill : ℚ) : K1 → List ℚ → Prop
  | int (n : Nat) : Kernel1dOf window fill (.int n) (window n)
  | whole (n : Nat) : Kernel1dOf window fill (.float (n + 2)) ([fill] ++ window n ++ [fill])
  | decimals (q : ℚ) (n : Nat) (h1 : (n : ℚ) < q) (h2 : q < n + 1) : Kernel1dOf window fill (.float q) ([fill] ++ window n ++ [fill])
  | decimalsNeg (q : ℚ) (h1 : -1 < q) (h2 : q < 0) : Kernel1dOf window fill (.float q) ([fill] ++ window 0 ++ [fill])
  | list (l : List ℚ) : Kernel1dOf window fill (.arr l) l

/-- `int(x)` of a float truncates towards zero -/
theorem trunc_of_pos (q : ℚ) (n : Nat) (h1 : (n : ℚ) ≤ q) (h2 : q < n + 1) : (if 0 ≤ q then q.floor else q.ceil) = (n : Int) := by
  rw [if_pos (le_trans (by positivity) h1)]
  exact (Int.floor_eq_iff (a := q) (z := (n : Int))).2 ⟨by exact_mod_cast h1, by exact_mod_cast h2⟩

theorem rat_ceil_eq (q : ℚ) : q.ceil = ⌈q⌉ := Rat.ceil_eq_neg_floor_neg q

theorem kernel1d_float (window : Nat → List ℚ) (fill q : ℚ) (t size : Int) (ht : (if 0 ≤ q then q.floor else q.ceil) = t)
    (hs : (if (t : ℚ) ≠ q then t + 2 else t) = size) :
    kernel1d window fill (.float q) = if size < 2 then .error .valueError else .ok ([fill] ++ window (size - 2).toNat ++ [fill]) := by
  subst ht hs
  rfl

/-- C27: the 1-D kernel made from its specification -/
theorem C27_kernel1d (window : Nat → List ℚ) (fill : ℚ) (s : K1) (v : List ℚ) : kernel1d window fill s = .ok v ↔ Kernel1dOf window fill s v := by
  constructor
  · intro h
    cases s with
    | int n =>
      unfold kernel1d at h
      dsimp only at h
      split at h
      · cases h
      · rename_i hn
        cases h
        have := Kernel1dOf.int (window := window) (fill := fill) n.toNat
        rwa [Int.toNat_of_nonneg (by omega)] at this
    | arr l => cases h; exact .list v
    | float q =>
      by_cases hq : 0 ≤ q
      · obtain ⟨n, hn⟩ : ∃ n : Nat, ⌊q⌋ = (n : Int) := ⟨⌊q⌋.toNat, by
          have : 0 ≤ ⌊q⌋ := Int.floor_nonneg.2 hq
          omega⟩
        have hb := (Int.floor_eq_iff (a := q) (z := (n : Int))).1 hn
        by_cases he : ((n : Int) : ℚ) ≠ q
        · rw [kernel1d_float window fill q n (n + 2) (by rw [if_pos hq]; exact hn) (by rw [if_pos he]), if_neg (by omega)] at h
          cases h
          have : ((n : Int) + 2 - 2).toNat = n := by omega
          rw [this]
          exact .decimals q n (lt_of_le_of_ne (by exact_mod_cast hb.1) (by exact_mod_cast he)) (by exact_mod_cast hb.2)
        · rw [kernel1d_float window fill q n n (by rw [if_pos hq]; exact hn) (by rw [if_neg he])] at h
          split at h
          · cases h
          · rename_i h2
            cases h
            push Not at he
            obtain ⟨m, rfl⟩ : ∃ m : Nat, n = m + 2 := ⟨n - 2, by omega⟩
            have : (((m + 2 : Nat) : Int) - 2).toNat = m := by omega
            rw [this, ← he]
            have := Kernel1dOf.whole (window := window) (fill := fill) m
            push_cast
            exact this
      · have hq' : q < 0 := not_le.1 hq
        have hc : q.ceil ≤ 0 := by
          rw [rat_ceil_eq]
          exact Int.ceil_le.2 (by exact_mod_cast hq'.le)
        by_cases he : ((q.ceil : Int) : ℚ) ≠ q
        · rw [kernel1d_float window fill q q.ceil (q.ceil + 2) (by rw [if_neg hq]) (by rw [if_pos he])] at h
          split at h
          · cases h
          · rename_i h2
            have h0 : q.ceil = 0 := by omega
            rw [h0] at h
            cases h
            refine .decimalsNeg q ?_ hq'
            rw [rat_ceil_eq] at h0
            have := ((Int.ceil_eq_iff (a := q) (z := 0)).1 h0).1
            push_cast at this
            linarith
        · rw [kernel1d_float window fill q q.ceil q.ceil (by rw [if_neg hq]) (by rw [if_neg he])] at h
          rw [if_pos (by omega)] at h
          cases h
  · intro h
    cases h with
    | int n => unfold kernel1d; dsimp only; rw [if_neg (by omega), Int.toNat_natCast]
    | list => rfl
    | whole n =>
      rw [kernel1d_float window fill _ (n + 2 : Nat) (n + 2 : Nat)
        (trunc_of_pos ((n : ℚ) + 2) (n + 2) (by push_cast; exact le_refl _) (by push_cast; linarith)) (by rw [if_neg (by push_cast; simp)]),
        if_neg (by omega)]
      have : (((n + 2 : Nat) : Int) - 2).toNat = n := by omega
      rw [this]
    | decimals q n h1 h2 =>
      rw [kernel1d_float window fill q n (n + 2) (trunc_of_pos q n h1.le h2) (by rw [if_pos (by intro h; rw [← h] at h1; simp at h1)]),
        if_neg (by omega)]
      have : ((n : Int) + 2 - 2).toNat = n := by omega
      rw [this]
    | decimalsNeg q h1 h2 =>
      have h0 : q.ceil = 0 := by
        rw [rat_ceil_eq]
        exact (Int.ceil_eq_iff (a := q) (z := 0)).2 ⟨by push_cast; linarith, by push_cast; linarith⟩
      rw [kernel1d_float window fill q 0 (0 + 2) (by rw [if_neg (not_le.2 h2), h0]) (by rw [if_pos (by intro h; rw [← h] at h2; simp at h2)]),
        if_neg (by omega)]
      rfl

/-- C27: a size of 0 or 1 given as a float, and negative sizes, are refused -/
theorem C27_kernel1d_refused (window : Nat → List ℚ) (fill : ℚ) (s : K1) (h : ¬ ∃ v, Kernel1dOf window fill s v) :
    kernel1d window fill s = .error .valueError := by
  have hn : ∀ v, kernel1d window fill s ≠ .ok v := fun v hv => h ⟨v, (C27_kernel1d window fill s v).1 hv⟩
  cases s with
  | arr l => exact absurd rfl (hn l)
  | int n =>
    unfold kernel1d at hn ⊢
    dsimp only at hn ⊢
    split
    · rfl
    · rename_i hh; exact absurd (if_neg hh) (hn _)
  | float q =>
    unfold kernel1d at hn ⊢
    dsimp only at hn ⊢
    generalize (if 0 ≤ q then q.floor else q.ceil) = t at hn ⊢
    generalize (if (t : ℚ) ≠ q then t + 2 else t) = size at hn ⊢
    by_cases hh : size < 2
    · rw [if_pos hh]
    · exact absurd (if_neg hh) (hn _)

/-- the 1-D kernels made from the specifications -/
def Kernels1d (window : Nat → List ℚ) (fill : ℚ) (l : List K1) (vs : List (List ℚ)) : Prop :=
  List.Forall₂ (Kernel1dOf window fill) l vs

/-- product of the values of 1-D kernels at the indices `idx` -/
def prodAt (vs : List (List ℚ)) (idx : List Nat) : ℚ := (List.zipWith (fun v i => v.getD i 0) vs idx).prod

theorem prodAt_append (vs ws : List (List ℚ)) (is js : List Nat) (h : vs.length = is.length) :
    prodAt (vs ++ ws) (is ++ js) = prodAt vs is * prodAt ws js := by
  unfold prodAt
  rw [List.zipWith_append h, List.prod_append]

theorem forall_len_one (mids : List (List ℚ)) (h : ∀ v ∈ mids, v.length = 1) : mids.map List.length = List.replicate mids.length 1 := by
  induction mids with
  | nil => rfl
  | cons a l ih =>
    simp only [List.map_cons, List.length_cons, List.replicate_succ]
    rw [h a (by simp), ih (fun v hv => h v (by simp [hv]))]

theorem orthoLoop_spec (window : Nat → List ℚ) (fill : ℚ) (l : List K1) (vs : List (List ℚ)) (hv : Kernels1d window fill l vs) :
    ∀ (v0 : List ℚ) (done : List (List ℚ)) (k : Nd), (∀ v ∈ done, v.length = 1) → (∀ v ∈ vs.dropLast, v.length = 1) →
      k.shape = v0.length :: List.replicate done.length 1 →
      (∀ i, k.val (i :: List.replicate done.length 0) = v0.getD i 0 * prodAt done (List.replicate done.length 0)) →
      ∃ k', orthoLoop window fill l k = .ok k' ∧ k'.shape = (v0 :: (done ++ vs)).map List.length ∧
        ∀ idx, InShape k'.shape idx → k'.val idx = prodAt (v0 :: (done ++ vs)) idx := by
  induction hv with
  | nil =>
    intro v0 done k h1 _ hs hval
    refine ⟨k, rfl, ?_, ?_⟩
    · rw [hs]; simp [forall_len_one done h1]
    · intro idx hidx
      rw [hs] at hidx
      cases idx with
      | nil => exact absurd hidx (by simp [InShape])
      | cons i is =>
        have := inShape_ones _ is hidx.2
        subst this
        rw [hval i]
        simp [prodAt]
  | @cons s v l vs hsv0 hrest ih =>
    have hsv := (C27_kernel1d window fill s v).2 hsv0
    intro v0 done k h1 h2 hs hval
    obtain ⟨k1, e1, e2, e3⟩ := tensorMerge_ones k v v0.length done.length hs
    unfold orthoLoop
    simp only [hsv, bind, Except.bind, e1]
    cases hrest with
    | nil =>
      refine ⟨k1, rfl, ?_, ?_⟩
      · rw [e2]; simp [forall_len_one done h1]
      · intro idx hidx
        rw [e2] at hidx
        cases idx with
        | nil => exact absurd hidx (by simp [InShape])
        | cons i is =>
          have hlen := inShape_length _ _ hidx.2
          rw [List.length_append, List.length_replicate, List.length_singleton] at hlen
          obtain ⟨a, b, rfl, hab⟩ : ∃ a b, is = a ++ [b] ∧ a.length = done.length := by
            refine ⟨is.dropLast, is.getLast (by intro h; rw [h] at hlen; simp at hlen), (List.dropLast_append_getLast _).symm, by simp; omega⟩
          have hh : InShape (List.replicate done.length 1) a ∧ InShape [v.length] [b] := by
            have h' := hidx.2
            clear hidx hlen e1 e2 e3 hval hs
            generalize done.length = m at *
            induction m generalizing a with
            | zero => cases a <;> simp_all [InShape]
            | succ m ihm =>
              cases a with
              | nil => simp at hab
              | cons x a =>
                rw [List.replicate_succ] at h' ⊢
                obtain ⟨u1, u2⟩ := h'
                simp only [List.length_cons, Nat.add_right_cancel_iff] at hab
                obtain ⟨w1, w2⟩ := ihm a hab u2
                exact ⟨⟨u1, w1⟩, w2⟩
          have ha := inShape_ones _ a hh.1
          subst ha
          rw [e3, hval]
          have : prodAt (v0 :: (done ++ [v])) (i :: (List.replicate done.length 0 ++ [b])) =
              v0.getD i 0 * (prodAt done (List.replicate done.length 0) * v.getD b 0) := by
            rw [show v0 :: (done ++ [v]) = [v0] ++ (done ++ [v]) from rfl, show i :: (List.replicate done.length 0 ++ [b]) = [i] ++ (List.replicate done.length 0 ++ [b]) from rfl,
              prodAt_append _ _ _ _ rfl, prodAt_append _ _ _ _ (by simp)]
            simp [prodAt]
          rw [this]; ring
    | @cons s' v' l' vs' hsv' hrest' =>
      have hv1 : v.length = 1 := h2 v (by simp)
      obtain ⟨k2, f1, f2, f3⟩ := ih v0 (done ++ [v]) k1 (by
          intro w hw
          rcases List.mem_append.1 hw with hw | hw
          · exact h1 w hw
          · simp at hw; rw [hw]; exact hv1)
        (fun w hw => h2 w (by simp only [List.dropLast_cons_cons] at hw ⊢; simp [hw]))
        (by rw [e2, hv1]; simp [List.replicate_succ'])
        (by
          intro i
          rw [List.length_append, List.length_singleton, List.replicate_succ', e3 i 0, hval i, prodAt_append _ _ _ _ (by simp)]
          simp [prodAt]
          ring)
      refine ⟨k2, f1, by rw [f2]; simp, ?_⟩
      intro idx hidx
      rw [f3 idx hidx]
      simp

/-- the orthogonal kernel: its sizes are those of the 1-D kernels and its values are their products -/
theorem orthoKernel_spec (window : Nat → List ℚ) (fill : ℚ) (l : List K1) (vs : List (List ℚ)) (hv : Kernels1d window fill l vs)
    (hne : l ≠ []) (hmid : ∀ v ∈ vs.tail.dropLast, v.length = 1) :
    ∃ k, orthoKernel window fill l = .ok k ∧ k.shape = vs.map List.length ∧ ∀ idx, InShape k.shape idx → k.val idx = prodAt vs idx := by
  cases hv with
  | nil => exact absurd rfl hne
  | @cons s v l vs hsv0 hrest =>
    have hsv := (C27_kernel1d window fill s v).2 hsv0
    unfold orthoKernel
    simp only [hsv, bind, Except.bind]
    obtain ⟨k, e1, e2, e3⟩ := orthoLoop_spec window fill l vs hrest v [] (Nd.ofList v) (by simp) hmid (by simp [Nd.ofList])
      (by intro i; simp [Nd.ofList, prodAt])
    exact ⟨k, e1, by simpa using e2, by simpa using e3⟩

theorem zip_look (names : List String) (idx : List Nat) (pos : String → Nat) (h : idx = names.map pos) (vs : List (List ℚ)) :
    List.zipWith (fun v i => v.getD i 0) vs idx = List.zipWith (fun d v => v.getD (pos d) 0) names vs := by
  subst h
  induction names generalizing vs with
  | nil => cases vs <;> simp
  | cons a l ih =>
    cases vs with
    | nil => simp
    | cons v vs => simp only [List.map_cons, List.zipWith_cons_cons, ih]

theorem look_zip (names : List String) (hn : names.Nodup) (ns : List Nat) (hl : names.length = ns.length) (d : String) (n : Nat) (h : (d, n) ∈ names.zip ns) :
    look names ns d = n := by
  induction names generalizing ns with
  | nil => simp at h
  | cons a l ih =>
    cases ns with
    | nil => simp at h
    | cons m ns =>
      rw [List.nodup_cons] at hn
      simp only [List.zip_cons_cons, List.mem_cons, Prod.mk.injEq] at h
      unfold look
      rcases h with ⟨rfl, rfl⟩ | h
      · simp
      · have : d ≠ a := by
          rintro rfl
          exact hn.1 (List.of_mem_zip h).1
        rw [if_neg this]
        exact ih hn.2 ns (by simpa using hl) h

/-- an array whose dimensions are among `dims` gets exactly the dimensions `dims` -/
theorem insert_into {α} (a : LArr α) (ha : a.Ok) (dims : List String) (hd : dims.Nodup) (hsub : ∀ d ∈ a.dims, d ∈ dims) :
    ∃ r, transposeTo a (dims.map some) (fun _ => none) .insert = .ok r ∧ Transposed a r dims (newSize .insert (fun _ => none)) := by
  obtain ⟨r, hr, ht⟩ := C17_transpose a ha dims hd (fun _ => none) .insert (by decide)
  rw [← newSize_asked] at ht
  have h1 : a.dims.filter (fun d => d ∉ dims) ++ wanted a .insert dims = dims := by
    have h2 : a.dims.filter (fun d => d ∉ dims) = [] := by
      rw [List.filter_eq_nil_iff]
      intro d hd'
      simp [hsub d hd']
    have h3 : wanted a .insert dims = dims := by
      simp [wanted]
    rw [h2, h3, List.nil_append]
  rw [h1] at ht
  exact ⟨r, hr, ht⟩

/-- C27, partial: the kernel made for the dimensions `l` of the data has one dimension per dimension of the data, in the same order, the size of its 1-D kernel along each
specified dimension and 1 along the others, and its value at a position is the product of the values of the 1-D kernels. The 1-D
kernels, but the first and the last ones, must have a size of 1, otherwise nothing is made (`C27_three_kernels_violated`); this covers all the specifications of one or
two dimensions. -/
theorem C27_tensor_product_partial (window : Nat → List ℚ) (fill : ℚ) (l : List (String × K1)) (vs : List (List ℚ)) (dims : List String)
    (hd : dims.Nodup) (hl : (l.map (·.1)).Nodup) (hsub : ∀ d ∈ l.map (·.1), d ∈ dims)
    (hv : Kernels1d window fill (l.map (·.2)) vs) (hne : l ≠ []) (hmid : ∀ v ∈ vs.tail.dropLast, v.length = 1) :
    ∃ k, generateKernel window fill (.dict l) dims = .ok k ∧ k.Ok ∧ k.dims = dims ∧
      (∀ d v, (d, v) ∈ (l.map (·.1)).zip vs → k.size d = v.length) ∧
      (∀ d ∈ dims, d ∉ l.map (·.1) → k.size d = 1) ∧
      ∀ pos, (∀ d ∈ dims, pos d < k.size d) → k.at pos = (List.zipWith (fun d v => v.getD (pos d) 0) (l.map (·.1)) vs).prod := by
  obtain ⟨k0, e1, e2, e3⟩ := orthoKernel_spec window fill (l.map (·.2)) vs hv (by simpa using hne) hmid
  have hlen : (l.map (·.1)).length = vs.length := by
    have := hv.length_eq
    simp only [List.length_map] at this ⊢
    exact this
  have hmk : mkDa k0 (l.map (·.1)) = .ok ⟨l.map (·.1), k0.shape, k0.val⟩ := by
    unfold mkDa
    rw [if_pos (by rw [e2, hlen, List.length_map])]
  have hok : (⟨l.map (·.1), k0.shape, k0.val⟩ : LArr ℚ).Ok := ⟨hl, by show k0.shape.length = _; rw [e2, hlen, List.length_map]⟩
  obtain ⟨r, hr, ht⟩ := insert_into ⟨l.map (·.1), k0.shape, k0.val⟩ hok dims hd hsub
  refine ⟨r, ?_, ht.ok, ht.dims, ?_, ?_, ?_⟩
  · unfold generateKernel
    simp only [kernelDict, bind, Except.bind, e1, hmk]
    exact hr
  · intro d v hdv
    have hmem : d ∈ l.map (·.1) := (List.of_mem_zip hdv).1
    rw [(ht.sizes d hmem).2]
    refine look_zip (l.map (·.1)) hl k0.shape (by rw [e2, hlen, List.length_map]) d v.length ?_
    rw [e2, List.zip_map_right]
    exact List.mem_map.2 ⟨(d, v), hdv, rfl⟩
  · intro d h1 h2
    rw [ht.new d h1 h2]
    simp [newSize]
  · intro pos hpos
    rw [ht.vals pos]
    show k0.val ((l.map (·.1)).map pos) = _
    rw [e3]
    · unfold prodAt
      rw [zip_look (l.map (·.1)) _ pos rfl]
    · have hsh := shape_eq _ hok
      change k0.shape = (l.map (·.1)).map _ at hsh
      rw [hsh]
      apply inShape_map
      intro d hd'
      have := hpos d (hsub d hd')
      rw [(ht.sizes d hd').2] at this
      exact this

/-- the ready-made kernels: their dimensions are completed and reordered -/
theorem generateKernel_da (window : Nat → List ℚ) (fill : ℚ) (k : LArr ℚ) (hk : k.Ok) (dims : List String) (hd : dims.Nodup)
    (hsub : ∀ d ∈ k.dims, d ∈ dims) :
    ∃ r, generateKernel window fill (.da k) dims = .ok r ∧ Transposed k r dims (newSize .insert (fun _ => none)) := by
  obtain ⟨r, hr, ht⟩ := insert_into k hk dims hd hsub
  refine ⟨r, ?_, ht⟩
  unfold generateKernel
  simp only [kernelDict, bind, Except.bind]
  rw [if_pos hsub]
  exact hr

/-- C27: a kernel with named dimensions of the data is only reordered and completed by dimensions of size 1 -/
theorem C27_named_kernel (window : Nat → List ℚ) (fill : ℚ) (k : LArr ℚ) (hk : k.Ok) (dims : List String) (hd : dims.Nodup)
    (hsub : ∀ d ∈ k.dims, d ∈ dims) :
    ∃ r, generateKernel window fill (.da k) dims = .ok r ∧ r.dims = dims ∧ (∀ d ∈ k.dims, r.size d = k.size d) ∧
      (∀ d ∈ dims, d ∉ k.dims → r.size d = 1) ∧ ∀ pos, r.at pos = k.at pos := by
  obtain ⟨r, hr, ht⟩ := generateKernel_da window fill k hk dims hd hsub
  refine ⟨r, hr, ht.dims, fun d h => (ht.sizes d h).2, ?_, ht.vals⟩
  intro d h1 h2
  rw [ht.new d h1 h2]
  simp [newSize]

/-- C27: a kernel with a dimension that the data do not have is refused -/
theorem C27_named_kernel_refused (window : Nat → List ℚ) (fill : ℚ) (k : LArr ℚ) (dims : List String) (d : String) (h1 : d ∈ k.dims) (h2 : d ∉ dims) :
    generateKernel window fill (.da k) dims = .error .xoaError := by
  unfold generateKernel
  simp only [kernelDict, bind, Except.bind]
  rw [if_neg (fun h => h2 (h d h1))]

/-- C27: an unnamed array is given the last dimensions of the data -/
theorem C27_numpy_kernel (window : Nat → List ℚ) (fill : ℚ) (k : Nd) (dims : List String) (h0 : k.shape ≠ [])
    (hl : k.shape.length ≤ dims.length) :
    generateKernel window fill (.nd k) dims =
      generateKernel window fill (.da ⟨dims.drop (dims.length - k.shape.length), k.shape, k.val⟩) dims := by
  unfold generateKernel
  have hn : k.shape.length ≠ 0 := by simpa using h0
  simp only [kernelDict, bind, Except.bind]
  rw [if_neg (by omega), if_pos (fun d h => List.mem_of_mem_drop h)]
  unfold mkDa lastDims
  rw [if_neg hn, if_pos (by simp; omega)]

/-- C27: an integer is the same size along all the dimensions, a list the same 1-D kernel along all of them, a tuple gives those of the
last dimensions; a tuple that is too long is refused -/
theorem C27_forms (window : Nat → List ℚ) (fill : ℚ) (dims : List String) (n : Int) (v : List ℚ) (t : List K1) :
    generateKernel window fill (.int n) dims = generateKernel window fill (.dict (dims.map (fun d => (d, .int n)))) dims ∧
    generateKernel window fill (.list v) dims = generateKernel window fill (.dict (dims.map (fun d => (d, .arr v)))) dims ∧
    (t.length ≤ dims.length → t ≠ [] →
      generateKernel window fill (.tuple t) dims = generateKernel window fill (.dict ((dims.drop (dims.length - t.length)).zip t)) dims) ∧
    (dims.length < t.length → generateKernel window fill (.tuple t) dims = .error .xoaError) := by
  refine ⟨rfl, rfl, ?_, ?_⟩
  · intro h h0
    unfold generateKernel
    have : t.length ≠ 0 := by simpa using h0
    simp only [kernelDict, bind, Except.bind, lastDims]
    rw [if_neg (by omega), if_neg this]
  · intro h
    unfold generateKernel
    simp only [kernelDict, bind, Except.bind]
    rw [if_pos h]

theorem orthoLoop_fails (window : Nat → List ℚ) (fill : ℚ) (l : List K1) (hl : l ≠ []) (k : Nd) (n : Nat) (ns : List Nat) (h : k.shape = n :: ns)
    (h1 : ns ≠ []) (h2 : ns.getLastD 0 ≠ 1) : ∃ e, orthoLoop window fill l k = .error e := by
  cases l with
  | nil => exact absurd rfl hl
  | cons s l =>
    unfold orthoLoop
    cases hs : kernel1d window fill s with
    | error e => exact ⟨e, rfl⟩
    | ok v =>
      simp only [bind, Except.bind, tensorMerge_fails k v n ns h h1 h2]
      exact ⟨_, rfl⟩

/-- C27 is false of three dimensions: when a 1-D kernel that is neither the first nor the last one has a size other than 1, nothing is made. -/
theorem C27_three_kernels_violated (window : Nat → List ℚ) (fill : ℚ) (d1 d2 d3 : String) (s1 s2 s3 : K1) (rest : List (String × K1)) (dims : List String)
    (v2 : List ℚ) (h2' : Kernel1dOf window fill s2 v2) (hv : v2.length ≠ 1) :
    ∃ e, generateKernel window fill (.dict ((d1, s1) :: (d2, s2) :: (d3, s3) :: rest)) dims = .error e := by
  have h2 := (C27_kernel1d window fill s2 v2).2 h2'
  have key : ∃ e, orthoKernel window fill (s1 :: s2 :: s3 :: rest.map (·.2)) = .error e := by
    unfold orthoKernel
    dsimp only
    cases hs : kernel1d window fill s1 with
    | error e => exact ⟨e, rfl⟩
    | ok v1 =>
      obtain ⟨k', e1, e2, -⟩ := tensorMerge_ones (Nd.ofList v1) v2 v1.length 0 rfl
      obtain ⟨e, he⟩ := orthoLoop_fails window fill (s3 :: rest.map (·.2)) (by simp) k' v1.length [v2.length] (by simpa using e2) (by simp) (by simpa using hv)
      refine ⟨e, ?_⟩
      simp only [bind, Except.bind]
      unfold orthoLoop
      simp only [h2, bind, Except.bind, e1]
      exact he
  obtain ⟨e, he⟩ := key
  refine ⟨e, ?_⟩
  unfold generateKernel
  simp only [kernelDict, bind, Except.bind, List.map_cons, he]

/-- C27 is false of an integer size other than 1 for data with three dimensions or more: `convolve(data, 3)` fails. -/
theorem C27_int_three_dims_violated (window : Nat → List ℚ) (hw : ∀ n, (window n).length = n) (fill : ℚ) (d1 d2 d3 : String) (rest : List String)
    (n : Nat) (hn : n ≠ 1) : ∃ e, generateKernel window fill (.int n) (d1 :: d2 :: d3 :: rest) = .error e := by
  rw [(C27_forms window fill (d1 :: d2 :: d3 :: rest) n [] []).1]
  exact C27_three_kernels_violated window fill d1 d2 d3 (.int n) (.int n) (.int n) (rest.map (fun d => (d, .int n))) _ (window n)
    (.int n) (by rw [hw]; exact hn)

/-- C27 is false of a dictionary with a dimension that the data do not have: it is accepted, and the kernel has that dimension -/
theorem C27_unknown_dim_violated :
    (generateKernel onesWindow 0 (.dict [("x", .int 3), ("q", .int 3)]) ["y", "x"]).toOption.map (fun k => (k.dims, k.shape)) =
      some (["q", "y", "x"], [3, 1, 3]) := by decide +kernel

theorem zipWith_prod_nonneg (names : List String) (vs : List (List ℚ)) (h : ∀ v ∈ vs, ∀ x ∈ v, 0 ≤ x) (pos : String → Nat) :
    0 ≤ (List.zipWith (fun d v => v.getD (pos d) 0) names vs).prod := by
  induction names generalizing vs with
  | nil => simp
  | cons a l ih =>
    cases vs with
    | nil => simp
    | cons v vs =>
      simp only [List.zipWith_cons_cons, List.prod_cons]
      refine mul_nonneg ?_ (ih vs (fun w hw => h w (by simp [hw])))
      rw [List.getD_eq_getElem?_getD]
      cases h1 : v[pos a]? with
      | none => exact le_refl _
      | some x => exact h v (by simp) x (List.mem_of_getElem? h1)

theorem palindrome_getD (v : List ℚ) (h : v.reverse = v) (i : Nat) (hi : i < v.length) : v.getD (v.length - 1 - i) 0 = v.getD i 0 := by
  conv_rhs => rw [← h]
  rw [List.getD_eq_getElem?_getD, List.getD_eq_getElem?_getD, List.getElem?_reverse hi]

theorem zipWith_mirror (names : List String) (vs : List (List ℚ)) (d : String) (n : Nat) (pos : String → Nat)
    (h : ∀ v, (d, v) ∈ names.zip vs → v.length = n ∧ v.reverse = v) (hp : pos d < n) :
    List.zipWith (fun d v => v.getD (pos d) 0) names vs = List.zipWith (fun e v => v.getD (setPos pos d (n - 1 - pos d) e) 0) names vs := by
  induction names generalizing vs with
  | nil => simp
  | cons a l ih =>
    cases vs with
    | nil => simp
    | cons v vs =>
      simp only [List.zipWith_cons_cons]
      congr 1
      · by_cases ha : a = d
        · subst ha
          obtain ⟨h1, h2⟩ := h v (by simp)
          simp only [setPos, if_true]
          rw [← h1] at hp ⊢
          exact (palindrome_getD v h2 _ hp).symm
        · simp [setPos, ha]
      · exact ih vs (fun w hw => h w (by simp [hw]))

/-- C27: the kernel is nonnegative when the 1-D kernels are, and symmetric along each dimension when they are symmetric -/
theorem C27_sign_symmetry (window : Nat → List ℚ) (fill : ℚ) (l : List (String × K1)) (vs : List (List ℚ)) (dims : List String)
    (hd : dims.Nodup) (hl : (l.map (·.1)).Nodup) (hsub : ∀ d ∈ l.map (·.1), d ∈ dims)
    (hv : Kernels1d window fill (l.map (·.2)) vs) (hne : l ≠ []) (hmid : ∀ v ∈ vs.tail.dropLast, v.length = 1)
    (k : LArr ℚ) (hk : generateKernel window fill (.dict l) dims = .ok k) :
    ((∀ v ∈ vs, ∀ x ∈ v, 0 ≤ x) → ∀ pos, (∀ d ∈ dims, pos d < k.size d) → 0 ≤ k.at pos) ∧
    ((∀ v ∈ vs, v.reverse = v) → ∀ pos, (∀ d ∈ dims, pos d < k.size d) → ∀ d ∈ dims,
      k.at (setPos pos d (k.size d - 1 - pos d)) = k.at pos) := by
  obtain ⟨k', h1, h2, h3, h4, h5, h6⟩ := C27_tensor_product_partial window fill l vs dims hd hl hsub hv hne hmid
  rw [hk] at h1
  cases h1
  constructor
  · intro hp pos hpos
    rw [h6 pos hpos]
    exact zipWith_prod_nonneg _ _ hp _
  · intro hp pos hpos d hdd
    rw [h6 pos hpos, h6]
    · rw [← zipWith_mirror (l.map (·.1)) vs d (k.size d) pos _ (hpos d hdd)]
      intro v hv'
      exact ⟨(h4 d v hv').symm, hp v (List.of_mem_zip hv').2⟩
    · intro e he
      by_cases hed : e = d
      · subst hed
        simp only [setPos, if_true]
        have := hpos e he
        omega
      · simp only [setPos, hed, if_false]
        exact hpos e he

-- the hypotheses are met: sizes 3 and 2.5 along two of three dimensions
example : (generateKernel onesWindow 0 (.dict [("x", .int 3), ("t", .float (5/2))]) ["t", "y", "x"]).toOption.map
    (fun k => (k.dims, k.shape, (positions k.shape).map k.val)) =
    some (["t", "y", "x"], [4, 1, 3], [0, 0, 0, 1, 1, 1, 1, 1, 1, 0, 0, 0]) := by decide +kernel
example : Kernels1d onesWindow 0 [.int 3, .float (5/2)] [[1, 1, 1], [0, 1, 1, 0]] := by
  refine .cons (.int 3) (.cons (.decimals _ 2 (by norm_num) (by norm_num)) .nil)
example : (generateKernel onesWindow 0 (.tuple [.arr [1, 2, 1], .int 3]) ["t", "y", "x"]).toOption.map
    (fun k => (k.dims, k.shape, (positions k.shape).map k.val)) =
    some (["t", "y", "x"], [1, 3, 3], [1, 1, 1, 2, 2, 2, 1, 1, 1]) := by decide +kernel

/-! ### shapiro -/

theorem shapiro_val (dims : List String) (idx : List Nat) (h : InShape (dims.map (fun _ => 3)) idx) :
    (shapiroKernel dims).val idx = (idx.count 1 : ℚ) := by
  unfold shapiroKernel
  dsimp only
  induction dims generalizing idx with
  | nil => cases idx <;> simp_all [InShape]
  | cons d ds ih =>
    cases idx with
    | nil => simp [InShape] at h
    | cons i is =>
      obtain ⟨h1, h2⟩ := h
      simp only [List.map_cons, List.sum_cons]
      rw [ih is h2, List.count_cons]
      have : i = 0 ∨ i = 1 ∨ i = 2 := by
        have : i < 3 := h1
        omega
      rcases this with rfl | rfl | rfl <;> simp [add_comm]

theorem inShape_set (shape idx : List Nat) (h : InShape shape idx) (i v : Nat) (hv : ∀ n, shape[i]? = some n → v < n) : InShape shape (idx.set i v) := by
  induction shape generalizing idx i with
  | nil => cases idx <;> simp_all [InShape]
  | cons n ns ih =>
    cases idx with
    | nil => simp [InShape] at h
    | cons a as =>
      cases i with
      | zero => exact ⟨hv n rfl, h.2⟩
      | succ i => exact ⟨h.1, ih as h.2 i (fun m hm => hv m hm)⟩

/-- C27: the shapiro kernel has a size of 3 along each of its dimensions; its value is the number of dimensions along which the position is at the
centre; it is nonnegative and symmetric along each dimension. -/
theorem C27_shapiro (dims : List String) :
    (shapiroKernel dims).dims = dims ∧ (shapiroKernel dims).shape = dims.map (fun _ => 3) ∧
    ∀ idx, InShape (dims.map (fun _ => 3)) idx →
      (shapiroKernel dims).val idx = (idx.count 1 : ℚ) ∧ 0 ≤ (shapiroKernel dims).val idx ∧
      ∀ i, i < idx.length → (shapiroKernel dims).val (idx.set i (2 - idx.getD i 0)) = (shapiroKernel dims).val idx := by
  refine ⟨rfl, rfl, ?_⟩
  intro idx h
  have h1 := shapiro_val dims idx h
  refine ⟨h1, by rw [h1]; positivity, ?_⟩
  intro i hi
  have hlen := inShape_length _ _ h
  have hlt : idx.getD i 0 < 3 := by
    clear h1 hlen
    induction dims generalizing idx i with
    | nil => cases idx <;> simp_all [InShape]
    | cons d ds ih =>
      cases idx with
      | nil => simp [InShape] at h
      | cons a as =>
        cases i with
        | zero => exact h.1
        | succ i => simpa using ih as h.2 i (by simpa using hi)
  rw [h1, shapiro_val dims _ (inShape_set _ _ h i _ (by
    intro n hn
    have : n = 3 := by
      have := List.mem_of_getElem? hn
      simp at this
      omega
    omega))]
  rw [List.count_set (by exact hi)]
  rw [List.getD_eq_getElem?_getD, List.getElem?_eq_getElem hi] at *
  simp only [Option.getD_some] at *
  have h3 : idx[i] = 0 ∨ idx[i] = 1 ∨ idx[i] = 2 := by omega
  have hc : (if (idx[i] == 1) = true then 1 else 0) ≤ idx.count 1 := by
    split
    · rename_i h4
      have : idx[i] = 1 := by simpa using h4
      have : 1 ∈ idx := this ▸ List.getElem_mem hi
      exact List.count_pos_iff.2 this
    · omega
  rcases h3 with h3 | h3 | h3
  · simp [h3]
  · simp only [h3, beq_self_eq_true, if_true] at hc ⊢
    congr 1
    omega
  · simp [h3]

-- as documented
example : (positions [3, 3]).map (shapiroKernel ["y", "x"]).val = [0, 1, 0, 1, 2, 1, 0, 1, 0] := by decide +kernel

end Xoa
