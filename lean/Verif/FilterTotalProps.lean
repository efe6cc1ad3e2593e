import Verif.SymKernelProps

/-! # C235: filters conserve the total -/

namespace Xoa

/-! ## Specification -/

/-- the sum of the values of an array -/
def totalOf (a : LArr V) : ℚ := ((positions a.shape).map (fun p => (a.val p).getD 0)).sum

/-- all the positions that receive something from the datum at `q` through a kernel of sizes `ks` are in an array of sizes `ns` -/
def RoomAround : List Nat → List Nat → List Nat → Prop
  | [], [], [] => True
  | k :: ks, n :: ns, q :: qs => (k - 1) / 2 ≤ q ∧ q + k / 2 < n ∧ RoomAround ks ns qs
  | _, _, _ => False

/-- all the positions from which the result at `p` receives something through a kernel of sizes `ks` are in an array of sizes `ns` -/
def RoomSeen : List Nat → List Nat → List Nat → Prop
  | [], [], [] => True
  | k :: ks, n :: ns, p :: ps => k / 2 ≤ p ∧ p + (k - 1) / 2 < n ∧ RoomSeen ks ns ps
  | _, _, _ => False

/-! ## Proofs -/

/-- the position that receives the weight `j` of the datum at `q` -/
def placeTo : List Nat → List Nat → List Nat → List Nat
  | k :: ks, j :: js, q :: qs => (j + q - (k - 1) / 2) :: placeTo ks js qs
  | _, _, _ => []

/-- the position whose datum has the weight `j` for the result at `p` -/
def placeFrom : List Nat → List Nat → List Nat → List Nat
  | k :: ks, j :: js, p :: ps => (p + (k - 1) / 2 - j) :: placeFrom ks js ps
  | _, _, _ => []

theorem placeTo_ok : ∀ (ks ns j q : List Nat), RoomAround ks ns q → InShape ks j → InShape ns (placeTo ks j q) ∧ kIdx ks (placeTo ks j q) q = some j := by
  intro ks
  induction ks with
  | nil =>
    intro ns j q hr hj
    match ns, q, hr, j, hj with
    | [], [], _, [], _ => exact ⟨trivial, rfl⟩
  | cons k ks ih =>
    intro ns j q hr hj
    match ns, q, hr, j, hj with
    | n :: ns, q :: qs, hr, j :: js, hj =>
      obtain ⟨h1, h2, h3⟩ := hr
      obtain ⟨g1, g2⟩ := hj
      obtain ⟨e1, e2⟩ := ih ns js qs h3 g2
      refine ⟨⟨by omega, e1⟩, ?_⟩
      simp only [placeTo, kIdx]
      rw [if_pos (by omega), e2]
      simp only [Option.map_some, Option.some.injEq, List.cons.injEq, and_true]
      omega

theorem placeTo_kIdx : ∀ (ks p q j : List Nat), kIdx ks p q = some j → placeTo ks j q = p := by
  intro ks
  induction ks with
  | nil =>
    intro p q j h
    match p, q, h with
    | [], [], h => rfl
  | cons k ks ih =>
    intro p q j h
    match p, q, h with
    | p :: ps, q :: qs, h =>
      simp only [kIdx] at h
      by_cases hc : q ≤ p + (k - 1) / 2 ∧ p + (k - 1) / 2 - q < k
      · rw [if_pos hc] at h
        cases hr : kIdx ks ps qs with
        | none => rw [hr] at h; cases h
        | some js =>
          rw [hr] at h
          simp only [Option.map_some, Option.some.injEq] at h
          subst h
          simp only [placeTo, ih ps qs js hr, List.cons.injEq, and_true]
          omega
      · rw [if_neg hc] at h
        cases h

theorem placeFrom_ok : ∀ (ks ns j p : List Nat), RoomSeen ks ns p → InShape ks j → InShape ns (placeFrom ks j p) ∧ kIdx ks p (placeFrom ks j p) = some j := by
  intro ks
  induction ks with
  | nil =>
    intro ns j p hr hj
    match ns, p, hr, j, hj with
    | [], [], _, [], _ => exact ⟨trivial, rfl⟩
  | cons k ks ih =>
    intro ns j p hr hj
    match ns, p, hr, j, hj with
    | n :: ns, p :: ps, hr, j :: js, hj =>
      obtain ⟨h1, h2, h3⟩ := hr
      obtain ⟨g1, g2⟩ := hj
      obtain ⟨e1, e2⟩ := ih ns js ps h3 g2
      refine ⟨⟨by omega, e1⟩, ?_⟩
      simp only [placeFrom, kIdx]
      rw [if_pos (by omega), e2]
      simp only [Option.map_some, Option.some.injEq, List.cons.injEq, and_true]
      omega

theorem placeFrom_kIdx : ∀ (ks p q j : List Nat), kIdx ks p q = some j → placeFrom ks j p = q := by
  intro ks
  induction ks with
  | nil =>
    intro p q j h
    match p, q, h with
    | [], [], h => rfl
  | cons k ks ih =>
    intro p q j h
    match p, q, h with
    | p :: ps, q :: qs, h =>
      simp only [kIdx] at h
      by_cases hc : q ≤ p + (k - 1) / 2 ∧ p + (k - 1) / 2 - q < k
      · rw [if_pos hc] at h
        cases hr : kIdx ks ps qs with
        | none => rw [hr] at h; cases h
        | some js =>
          rw [hr] at h
          simp only [Option.map_some, Option.some.injEq] at h
          subst h
          simp only [placeFrom, ih ps qs js hr, List.cons.injEq, and_true]
          omega
      · rw [if_neg hc] at h
        cases h

/-- a sum of weights over positions that are joined one to one to those of the kernel is the sum of the kernel -/
theorem sum_weights (k : LArr ℚ) (ns : List Nat) (idx : List Nat → Option (List Nat)) (place : List Nat → List Nat)
    (h1 : ∀ j, InShape k.shape j → InShape ns (place j) ∧ idx (place j) = some j) (h2 : ∀ p j, idx p = some j → place j = p ∧ InShape k.shape j) :
    ((positions ns).map (fun p => (idx p).elim 0 k.val)).sum = kSum k := by
  unfold kSum
  rw [← List.sum_toFinset _ (positions_nodup ns), ← List.sum_toFinset _ (positions_nodup k.shape)]
  have h0 : ∑ p ∈ (positions ns).toFinset, (idx p).elim 0 k.val = ∑ p ∈ (positions ns).toFinset.filter (fun p => (idx p).isSome), (idx p).elim 0 k.val := by
    rw [Finset.sum_filter]
    apply Finset.sum_congr rfl
    intro p _
    split
    · rfl
    · rename_i h
      rw [Option.not_isSome_iff_eq_none.1 h]; rfl
  rw [h0]
  refine Finset.sum_nbij' (fun p => (idx p).getD []) place ?_ ?_ ?_ ?_ ?_
  · intro p hp
    obtain ⟨j, hj⟩ := Option.isSome_iff_exists.1 (Finset.mem_filter.1 hp).2
    rw [hj]
    exact List.mem_toFinset.2 ((mem_positions _ _).2 (h2 p j hj).2)
  · intro j hj
    obtain ⟨a, b⟩ := h1 j ((mem_positions _ _).1 (List.mem_toFinset.1 hj))
    exact Finset.mem_filter.2 ⟨List.mem_toFinset.2 ((mem_positions _ _).2 a), by rw [b]; rfl⟩
  · intro p hp
    obtain ⟨j, hj⟩ := Option.isSome_iff_exists.1 (Finset.mem_filter.1 hp).2
    rw [hj]
    exact (h2 p j hj).1
  · intro j hj
    rw [(h1 j ((mem_positions _ _).1 (List.mem_toFinset.1 hj))).2]; rfl
  · intro p hp
    obtain ⟨j, hj⟩ := Option.isSome_iff_exists.1 (Finset.mem_filter.1 hp).2
    rw [hj]; rfl

theorem weights_around (k : LArr ℚ) (ns q : List Nat) (h : RoomAround k.shape ns q) : ((positions ns).map (fun p => kAt k p q)).sum = kSum k :=
  sum_weights k ns (fun p => kIdx k.shape p q) (fun j => placeTo k.shape j q) (fun j hj => placeTo_ok _ _ _ _ h hj)
    (fun _ j hj => ⟨placeTo_kIdx _ _ _ _ hj, kIdx_inShape _ _ _ _ hj⟩)

theorem weights_seen (k : LArr ℚ) (ns p : List Nat) (h : RoomSeen k.shape ns p) : ((positions ns).map (fun q => kAt k p q)).sum = kSum k :=
  sum_weights k ns (fun q => kIdx k.shape p q) (fun j => placeFrom k.shape j p) (fun j hj => placeFrom_ok _ _ _ _ h hj)
    (fun _ j hj => ⟨placeFrom_kIdx _ _ _ _ hj, kIdx_inShape _ _ _ _ hj⟩)

theorem sum_swapL (L M : List (List Nat)) (g : List Nat → List Nat → ℚ) :
    (L.map (fun p => (M.map (fun q => g p q)).sum)).sum = (M.map (fun q => (L.map (fun p => g p q)).sum)).sum := by
  induction L with
  | nil => simp
  | cons x xs ih => simp only [List.map_cons, List.sum_cons, ih, List.sum_map_add]

/-- the total of what every datum gives -/
theorem total_conv (k : LArr ℚ) (ns : List Nat) (f : List Nat → ℚ) (h : ∀ q, InShape ns q → f q ≠ 0 → RoomAround k.shape ns q) :
    ((positions ns).map (fun p => ((positions ns).map (fun q => kAt k p q * f q)).sum)).sum = kSum k * ((positions ns).map f).sum := by
  rw [sum_swapL, ← List.sum_map_mul_left]
  congr 1
  apply List.map_congr_left
  intro q hq
  rw [List.sum_map_mul_right]
  by_cases h0 : f q = 0
  · rw [h0]; ring
  · rw [weights_around k ns q (h q ((mem_positions _ _).1 hq) h0)]

theorem total_complete (data : LArr V) (f : List Nat → ℚ) (hf : Complete data f) : totalOf data = ((positions data.shape).map f).sum := by
  unfold totalOf
  congr 1
  apply List.map_congr_left
  intro q hq
  rw [hf q ((mem_positions _ _).1 hq)]; rfl

/-! ## The property -/

/-- **C235** (plain convolution): for complete data that are zero near the edges (where the kernel centered at a datum goes out of the array), the convolution that is not normalised multiplies the total of the data by the sum of the kernel,
whatever the kernel: its weights may be negative, and its sizes even. -/
theorem C235_plain (data : LArr V) (f : List Nat → ℚ) (hf : Complete data f) (spec : KSpec) (k : LArr ℚ) (hk : generateKernel onesWindow 0 spec data.dims = .ok k) (hl : data.shape.length = k.shape.length)
    (h : ∀ q, InShape data.shape q → f q ≠ 0 → RoomAround k.shape data.shape q) :
    ∃ r, convolve data spec false = .ok r ∧ r.dims = data.dims ∧ r.shape = data.shape ∧ (∀ p, r.val p ≠ none) ∧ totalOf r = kSum k * totalOf data := by
  have hm : ((positions data.shape).any fun q => (data.val q).isNone) = false := by
    rw [List.any_eq_false]
    intro q hq
    rw [hf q ((mem_positions _ _).1 hq)]
    simp
  have hr : ∃ r, convolveNd data k false = .ok r ∧ r.dims = data.dims ∧ r.shape = data.shape ∧ ∀ p, r.val p = some (conv data.shape (fun q => (data.val q).getD 0) k p) := by
    unfold convolveNd
    rw [if_neg (by simpa using hl)]
    refine ⟨_, rfl, rfl, rfl, ?_⟩
    intro p
    dsimp only
    rw [hm]
    simp
  obtain ⟨r, e, h1, h2, h3⟩ := hr
  refine ⟨r, ?_, h1, h2, (fun p => by rw [h3]; exact Option.some_ne_none _), ?_⟩
  · unfold convolve
    rw [hk]; exact e
  · rw [total_complete data f hf, ← total_conv k data.shape f h]
    unfold totalOf
    rw [h2]
    congr 1
    apply List.map_congr_left
    intro p _
    rw [h3]
    show conv data.shape _ k p = _
    unfold conv
    congr 1
    apply List.map_congr_left
    intro q hq
    dsimp only
    rw [hf q ((mem_positions _ _).1 hq)]; rfl

/-- **C235** (mean): for complete data that are zero near the edges (so that where the mean sees a datum that is not zero, the kernel is inside the array), the normalised convolution with a kernel without negative weight and not zero everywhere
conserves the total. -/
theorem C235_mean (data : LArr V) (f : List Nat → ℚ) (hf : Complete data f) (spec : KSpec) (k : LArr ℚ) (hk : generateKernel onesWindow 0 spec data.dims = .ok k) (hl : data.shape.length = k.shape.length)
    (hn : KNonneg k) (hpos : 0 < kSum k) (h : ∀ q, InShape data.shape q → f q ≠ 0 → RoomAround k.shape data.shape q)
    (h' : ∀ p q, InShape data.shape p → InShape data.shape q → f q ≠ 0 → kAt k p q ≠ 0 → RoomSeen k.shape data.shape p) :
    ∃ r, convolve data spec true = .ok r ∧ r.dims = data.dims ∧ r.shape = data.shape ∧ totalOf r = totalOf data := by
  obtain ⟨r, e, h1, h2, -⟩ := convolveNd_spec data k hn hl true
  refine ⟨r, ?_, h1, h2, ?_⟩
  · unfold convolve
    rw [hk]; exact e
  · have hs : ∀ p, availSum data k p = ((positions data.shape).map (fun q => kAt k p q * f q)).sum := by
      intro p
      unfold availSum
      congr 1
      apply List.map_congr_left
      intro q hq
      rw [hf q ((mem_positions _ _).1 hq)]; rfl
    have hw : ∀ p, RoomSeen k.shape data.shape p → availWeight data k p = kSum k := by
      intro p hp
      rw [← weights_seen k data.shape p hp]
      unfold availWeight
      congr 1
      apply List.map_congr_left
      intro q hq
      rw [hf q ((mem_positions _ _).1 hq)]; rfl
    have hm : ¬ HasMissing data := by
      rintro ⟨q, hq, hv⟩
      rw [hf q hq] at hv
      cases hv
    have key : ∀ p, InShape data.shape p → (r.val p).getD 0 = ((positions data.shape).map (fun q => kAt k p q * f q)).sum / kSum k := by
      intro p hp
      by_cases hz : ∀ q, InShape data.shape q → kAt k p q * f q = 0
      · have h0 : ((positions data.shape).map (fun q => kAt k p q * f q)).sum = 0 := by
          apply List.sum_eq_zero
          intro x hx
          rw [List.mem_map] at hx
          obtain ⟨q, hq, rfl⟩ := hx
          exact hz q ((mem_positions _ _).1 hq)
        rw [h0, zero_div]
        cases hv : r.val p with
        | none => rfl
        | some v =>
          obtain ⟨-, -, hc⟩ := C22_weighted_mean data r k hn e
          show v = 0
          rw [(hc p v hv).2.1, hs, h0, zero_div]
      · push Not at hz
        obtain ⟨q, hq, hne⟩ := hz
        have hr := h' p q hp hq (right_ne_zero_of_mul hne) (left_ne_zero_of_mul hne)
        cases hv : r.val p with
        | none =>
          exfalso
          rw [C22_missing_complete data r k hn e hm] at hv
          exact hv ((availWeight_pos_iff data k hn p).1 (by rw [hw p hr]; exact hpos))
        | some v =>
          obtain ⟨-, -, hc⟩ := C22_weighted_mean data r k hn e
          show v = _
          rw [(hc p v hv).2.1, hs, hw p hr]
    have ht := total_conv k data.shape f h
    rw [total_complete data f hf]
    have : totalOf r = ((positions data.shape).map (fun p => ((positions data.shape).map (fun q => kAt k p q * f q)).sum * (1 / kSum k))).sum := by
      unfold totalOf
      rw [h2]
      congr 1
      apply List.map_congr_left
      intro p hp
      rw [key p ((mem_positions _ _).1 hp)]
      ring
    rw [this, List.sum_map_mul_right, ht]
    field_simp

/-- the hypotheses of **C235** are met by an impulse in the middle of a line and a kernel that is not symmetric, of even size -/
example :
    let f : List Nat → ℚ := fun p => if p = [3] then 5 else 0
    let data : LArr V := ⟨["x"], [7], fun p => some (f p)⟩
    let k : LArr ℚ := ⟨["x"], [4], fun j => (j.getD 0 0 : ℚ)⟩
    Complete data f ∧ KNonneg k ∧ kSum k = 6 ∧ totalOf data = 5 ∧ (∀ q, InShape data.shape q → f q ≠ 0 → RoomAround k.shape data.shape q) ∧
    (∀ p q, InShape data.shape p → InShape data.shape q → f q ≠ 0 → kAt k p q ≠ 0 → RoomSeen k.shape data.shape p) := by
  have hq : ∀ q : List Nat, (if q = [3] then (5 : ℚ) else 0) ≠ 0 → q = [3] := by
    intro q h
    by_contra hc
    exact h (if_neg hc)
  refine ⟨fun q _ => rfl, ?_, ?_, ?_, ?_, ?_⟩
  · intro j _
    exact Nat.cast_nonneg _
  · norm_num [kSum, positions, List.range_succ]
  · norm_num [totalOf, positions, List.range_succ]
  · intro q _ h
    rw [hq q h]
    exact ⟨by omega, by omega, trivial⟩
  · intro p q hp _ h hk
    rw [hq q h] at hk
    match p, hp with
    | [p], hp =>
      have : p < 7 := hp.1
      show 4 / 2 ≤ p ∧ p + (4 - 1) / 2 < 7 ∧ True
      by_contra hc
      apply hk
      unfold kAt
      have : p < 2 ∨ p = 6 := by
        by_contra hd
        exact hc ⟨by omega, by omega, trivial⟩
      rcases this with h2 | rfl
      · simp only [kIdx]
        rw [if_neg (by omega)]; rfl
      · rfl

end Xoa
