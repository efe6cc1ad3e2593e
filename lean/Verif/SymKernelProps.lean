import Verif.ShapiroProps
import Mathlib.Tactic.LinearCombination

/-! # C234: symmetric kernels keep linear fields -/

namespace Xoa

/-! ## Specification -/

/-- the position opposite to `j` in an array of these sizes -/
def mirrorIdx : List Nat → List Nat → List Nat
  | n :: ns, j :: js => (n - 1 - j) :: mirrorIdx ns js
  | _, _ => []

/-- the kernel has odd sizes and the same weight at opposite positions -/
structure MirrorKernel (k : LArr ℚ) : Prop where
  odd : ∀ n ∈ k.shape, n % 2 = 1
  same : ∀ j, InShape k.shape j → k.val (mirrorIdx k.shape j) = k.val j

/-- a kernel of sizes `ks` centered at the position `p` is inside an array of sizes `ns` -/
def KernelInside : List Nat → List Nat → List Nat → Prop
  | [], [], [] => True
  | k :: ks, n :: ns, p :: ps => k / 2 ≤ p ∧ p + k / 2 < n ∧ KernelInside ks ns ps
  | _, _, _ => False

/-- a field that is linear in the indices: `b + a[0] * i[0] + a[1] * i[1] + ...` -/
def linearField (b : ℚ) (a : List ℚ) (i : List Nat) : ℚ := b + (List.zipWith (fun (c : ℚ) (n : Nat) => c * n) a i).sum

/-! ## Proofs -/

/-- `p` is in the middle of `q` and `q'` -/
def MidIdx : List Nat → List Nat → List Nat → Prop
  | [], [], [] => True
  | p :: ps, q :: qs, q' :: qs' => q + q' = 2 * p ∧ MidIdx ps qs qs'
  | _, _, _ => False

/-- the position opposite to `q` with respect to `p` -/
def reflectIdx : List Nat → List Nat → List Nat
  | p :: ps, q :: qs => (2 * p - q) :: reflectIdx ps qs
  | _, _ => []

theorem MidIdx.linear (b : ℚ) (a : List ℚ) : ∀ (p q q' : List Nat), MidIdx p q q' → linearField b a q + linearField b a q' = 2 * linearField b a p := by
  induction a with
  | nil => intro p q q' _; simp [linearField]; ring
  | cons c a ih =>
    intro p q q' h
    match p, q, q', h with
    | [], [], [], _ => simp [linearField]; ring
    | p :: ps, q :: qs, q' :: qs', h =>
      obtain ⟨h1, h2⟩ := h
      have := ih ps qs qs' h2
      unfold linearField at this ⊢
      simp only [List.zipWith_cons_cons, List.sum_cons]
      have hq : (q : ℚ) + q' = 2 * p := by exact_mod_cast h1
      linear_combination this + c * hq

theorem MidIdx.reflect : ∀ (p q q' : List Nat), MidIdx p q q' → reflectIdx p q = q' ∧ reflectIdx p q' = q := by
  intro p
  induction p with
  | nil =>
    intro q q' h
    match q, q', h with
    | [], [], _ => exact ⟨rfl, rfl⟩
  | cons p ps ih =>
    intro q q' h
    match q, q', h with
    | q :: qs, q' :: qs', h =>
      obtain ⟨h1, h2⟩ := h
      obtain ⟨i1, i2⟩ := ih qs qs' h2
      simp only [reflectIdx, i1, i2]
      refine ⟨?_, ?_⟩
      · rw [show 2 * p - q = q' by omega]
      · rw [show 2 * p - q' = q by omega]

theorem kIdx_reflect : ∀ (ks ns p q j : List Nat), (∀ n ∈ ks, n % 2 = 1) → KernelInside ks ns p → kIdx ks p q = some j →
    InShape ns (reflectIdx p q) ∧ kIdx ks p (reflectIdx p q) = some (mirrorIdx ks j) ∧ MidIdx p q (reflectIdx p q) := by
  intro ks
  induction ks with
  | nil =>
    intro ns p q j _ hin hk
    match ns, p, hin with
    | [], [], _ =>
      match q, hk with
      | [], hk =>
        simp only [kIdx, Option.some.injEq] at hk
        subst hk
        exact ⟨trivial, rfl, trivial⟩
  | cons k ks ih =>
    intro ns p q j hodd hin hk
    match ns, p, hin with
    | n :: ns, p :: ps, hin =>
      obtain ⟨h1, h2, h3⟩ := hin
      match q, hk with
      | q :: qs, hk =>
        simp only [kIdx] at hk
        by_cases hc : q ≤ p + (k - 1) / 2 ∧ p + (k - 1) / 2 - q < k
        · rw [if_pos hc] at hk
          cases hr : kIdx ks ps qs with
          | none => rw [hr] at hk; cases hk
          | some js =>
            rw [hr] at hk
            simp only [Option.map_some, Option.some.injEq] at hk
            subst hk
            obtain ⟨i1, i2, i3⟩ := ih ns ps qs js (fun n hn => hodd n (by simp [hn])) h3 hr
            have ho := hodd k (by simp)
            refine ⟨⟨by omega, i1⟩, ?_, ⟨by omega, i3⟩⟩
            simp only [reflectIdx, kIdx, mirrorIdx]
            rw [if_pos (by omega), i2]
            simp only [Option.map_some, Option.some.injEq, List.cons.injEq, and_true]
            omega
        · rw [if_neg hc] at hk
          cases hk

theorem kAt_reflect (k : LArr ℚ) (hs : MirrorKernel k) (ns p q : List Nat) (hin : KernelInside k.shape ns p) (hq : (kIdx k.shape p q).isSome) :
    InShape ns (reflectIdx p q) ∧ (kIdx k.shape p (reflectIdx p q)).isSome ∧ MidIdx p q (reflectIdx p q) ∧ kAt k p (reflectIdx p q) = kAt k p q := by
  obtain ⟨j, hj⟩ := Option.isSome_iff_exists.1 hq
  obtain ⟨h1, h2, h3⟩ := kIdx_reflect k.shape ns p q j hs.odd hin hj
  refine ⟨h1, by rw [h2]; rfl, h3, ?_⟩
  unfold kAt
  rw [h2, hj]
  exact hs.same j (kIdx_inShape _ _ _ _ hj)

/-- the differences with the central value cancel in pairs -/
theorem sum_pairs (k : LArr ℚ) (hs : MirrorKernel k) (ns p : List Nat) (hin : KernelInside k.shape ns p) (b : ℚ) (a : List ℚ) :
    ((positions ns).map (fun q => kAt k p q * (linearField b a q - linearField b a p))).sum = 0 := by
  rw [← List.sum_toFinset _ (positions_nodup ns)]
  have h0 : ∑ q ∈ (positions ns).toFinset, kAt k p q * (linearField b a q - linearField b a p) =
      ∑ q ∈ (positions ns).toFinset.filter (fun q => (kIdx k.shape p q).isSome), kAt k p q * (linearField b a q - linearField b a p) := by
    rw [Finset.sum_filter]
    apply Finset.sum_congr rfl
    intro q _
    split
    · rfl
    · rename_i h
      unfold kAt
      rw [Option.not_isSome_iff_eq_none.1 h]
      exact zero_mul _
  rw [h0]
  have hm : ∀ q ∈ (positions ns).toFinset.filter (fun q => (kIdx k.shape p q).isSome), (kIdx k.shape p q).isSome := fun q hq => (Finset.mem_filter.1 hq).2
  have h1 : ∑ q ∈ (positions ns).toFinset.filter (fun q => (kIdx k.shape p q).isSome), kAt k p q * (linearField b a q - linearField b a p) =
      ∑ q ∈ (positions ns).toFinset.filter (fun q => (kIdx k.shape p q).isSome), -(kAt k p q * (linearField b a q - linearField b a p)) := by
    refine Finset.sum_nbij' (reflectIdx p) (reflectIdx p) ?_ ?_ ?_ ?_ ?_
    · intro q hq
      obtain ⟨e1, e2, _, _⟩ := kAt_reflect k hs ns p q hin (hm q hq)
      exact Finset.mem_filter.2 ⟨List.mem_toFinset.2 ((mem_positions _ _).2 e1), e2⟩
    · intro q hq
      obtain ⟨e1, e2, _, _⟩ := kAt_reflect k hs ns p q hin (hm q hq)
      exact Finset.mem_filter.2 ⟨List.mem_toFinset.2 ((mem_positions _ _).2 e1), e2⟩
    · intro q hq
      exact (MidIdx.reflect _ _ _ (kAt_reflect k hs ns p q hin (hm q hq)).2.2.1).2
    · intro q hq
      exact (MidIdx.reflect _ _ _ (kAt_reflect k hs ns p q hin (hm q hq)).2.2.1).2
    · intro q hq
      obtain ⟨_, _, e3, e4⟩ := kAt_reflect k hs ns p q hin (hm q hq)
      have := MidIdx.linear b a p q _ e3
      rw [e4]
      linear_combination kAt k p q * this
  rw [Finset.sum_neg_distrib] at h1
  linarith

/-- some datum is reached -/
theorem reach_inside : ∀ (ks ns p j : List Nat), KernelInside ks ns p → (∀ n ∈ ks, n % 2 = 1) → InShape ks j → ∃ q, InShape ns q ∧ kIdx ks p q = some j := by
  intro ks
  induction ks with
  | nil =>
    intro ns p j hin _ hj
    match ns, p, hin, j, hj with
    | [], [], _, [], _ => exact ⟨[], trivial, rfl⟩
  | cons k ks ih =>
    intro ns p j hin hodd hj
    match ns, p, hin, j, hj with
    | n :: ns, p :: ps, hin, j :: js, hj =>
      obtain ⟨h1, h2, h3⟩ := hin
      obtain ⟨g1, g2⟩ := hj
      obtain ⟨q, e1, e2⟩ := ih ns ps js h3 (fun n hn => hodd n (by simp [hn])) g2
      have ho := hodd k (by simp)
      refine ⟨(p + (k - 1) / 2 - j) :: q, ⟨by omega, e1⟩, ?_⟩
      simp only [kIdx]
      rw [if_pos (by omega), e2]
      simp only [Option.map_some, Option.some.injEq, List.cons.injEq, and_true]
      omega

/-! ## The property -/

/-- **C234** (mean): where the kernel centered at a position is inside the array, the normalised convolution with a symmetric kernel that has no negative weight, and a positive one, keeps the value of a field that is linear in the indices,
in any number of dimensions. -/
theorem C234_mean (data : LArr V) (b : ℚ) (a : List ℚ) (hf : Complete data (linearField b a)) (spec : KSpec) (k : LArr ℚ)
    (hk : generateKernel onesWindow 0 spec data.dims = .ok k) (hn : KNonneg k) (hpos : ∃ j, InShape k.shape j ∧ 0 < k.val j) (hs : MirrorKernel k) (hl : data.shape.length = k.shape.length) :
    ∃ r, convolve data spec true = .ok r ∧ r.dims = data.dims ∧ r.shape = data.shape ∧
      ∀ p, InShape data.shape p → KernelInside k.shape data.shape p → r.val p = data.val p := by
  obtain ⟨r, e, h1, h2, -⟩ := convolveNd_spec data k hn hl true
  refine ⟨r, ?_, h1, h2, ?_⟩
  · unfold convolve
    rw [hk]; exact e
  · intro p hp hin
    have hm : ¬ HasMissing data := by
      rintro ⟨q, hq, hv⟩
      rw [hf q hq] at hv
      cases hv
    have hav : ∃ q, Available data k p q := by
      obtain ⟨j, j1, j2⟩ := hpos
      obtain ⟨q, q1, q2⟩ := reach_inside k.shape data.shape p j hin hs.odd j1
      refine ⟨q, q1, ⟨_, hf q q1⟩, ?_⟩
      unfold kAt
      rw [q2]; exact j2
    have hw := (availWeight_pos_iff data k hn p).2 hav
    have hsum : availSum data k p = linearField b a p * availWeight data k p := by
      have := sum_pairs k hs data.shape p hin b a
      have h3 : availSum data k p = ((positions data.shape).map (fun q => kAt k p q * linearField b a q)).sum := by
        unfold availSum
        congr 1
        apply List.map_congr_left
        intro q hq
        rw [hf q ((mem_positions _ _).1 hq)]; rfl
      have h4 : availWeight data k p = ((positions data.shape).map (fun q => kAt k p q)).sum := by
        unfold availWeight
        congr 1
        apply List.map_congr_left
        intro q hq
        rw [hf q ((mem_positions _ _).1 hq)]; rfl
      rw [h3, h4, ← List.sum_map_mul_left]
      have h5 : ((positions data.shape).map (fun q => kAt k p q * (linearField b a q - linearField b a p))).sum =
          ((positions data.shape).map (fun q => kAt k p q * linearField b a q)).sum - ((positions data.shape).map (fun q => linearField b a p * kAt k p q)).sum := by
        induction positions data.shape with
        | nil => simp
        | cons x xs ih => simp only [List.map_cons, List.sum_cons, ih]; ring
      linarith
    cases hv : r.val p with
    | none =>
      exfalso
      rw [C22_missing_complete data r k hn e hm] at hv
      exact hv hav
    | some v =>
      obtain ⟨-, -, h⟩ := C22_weighted_mean data r k hn e
      rw [(h p v hv).2.1, hsum, mul_div_cancel_right₀ _ hw.ne', hf p hp]

/-- the generated kernel is symmetric when the named kernel is -/
theorem symmetric_transposed (k r : LArr ℚ) (hk : k.Ok) (dims : List String) (ht : Transposed k r dims (newSize .insert (fun _ => none))) (hs : MirrorKernel k) : MirrorKernel r := by
  have hr : r.shape = dims.map r.size := by rw [shape_eq r ht.ok, ht.dims]
  have hks : k.shape = k.dims.map k.size := shape_eq k hk
  have hn : dims.Nodup := by rw [← ht.dims]; exact ht.ok.nodup
  have mir : ∀ (L : List String) (S T : String → Nat), mirrorIdx (L.map S) (L.map T) = L.map (fun d => S d - 1 - T d) := by
    intro L S T
    induction L with
    | nil => rfl
    | cons x xs ih => simp only [List.map_cons, mirrorIdx, ih]
  constructor
  · intro n h
    rw [hr, List.mem_map] at h
    obtain ⟨d, hd, rfl⟩ := h
    by_cases hc : d ∈ k.dims
    · rw [(ht.sizes d hc).2]
      exact hs.odd _ (by rw [hks]; exact List.mem_map_of_mem hc)
    · rw [ht.new d hd hc]; rfl
  · intro j hj
    have hl : j.length = dims.length := by rw [inShape_length _ _ hj, ht.ok.len, ht.dims]
    have hje := map_look dims j hn hl
    have hm : mirrorIdx r.shape j = dims.map (fun d => r.size d - 1 - look dims j d) := by
      conv => lhs; rw [← hje, hr]
      exact mir dims r.size (look dims j)
    have hmj : InShape r.shape (mirrorIdx r.shape j) := by
      rw [hm]
      conv => arg 1; rw [hr]
      apply inShape_map
      intro d hd
      have := look_lt dims r.size j (by rw [← hr]; exact hj) d hd
      omega
    obtain ⟨t1, t2⟩ := transposed_val k r hk dims _ ht j hj
    obtain ⟨u1, u2⟩ := transposed_val k r hk dims _ ht _ hmj
    rw [u2, t2, ← hs.same _ t1]
    congr 1
    rw [hks, mir]
    apply List.map_congr_left
    intro d hd
    rw [hm, look_map _ _ _ (ht.sizes d hd).1, (ht.sizes d hd).2]

/-- **C234** (named kernel): the same for a kernel given as an array with some of the dimensions of the data, in any order: it is symmetric with respect to its centre, of odd sizes, without negative weight and not zero everywhere. -/
theorem C234_named_kernel (data : LArr V) (hd : data.Ok) (b : ℚ) (a : List ℚ) (hf : Complete data (linearField b a)) (kern : LArr ℚ) (hk : kern.Ok) (hsub : ∀ d ∈ kern.dims, d ∈ data.dims)
    (hn : KNonneg kern) (hpos : ∃ pos : String → Nat, (∀ d ∈ kern.dims, pos d < kern.size d) ∧ 0 < kern.at pos) (hs : MirrorKernel kern) :
    ∃ r, convolve data (.da kern) true = .ok r ∧ r.dims = data.dims ∧ r.shape = data.shape ∧
      ∀ P : String → Nat, (∀ d ∈ data.dims, P d < data.size d) → (∀ d ∈ kern.dims, kern.size d / 2 ≤ P d ∧ P d + kern.size d / 2 < data.size d) →
        r.val (data.dims.map P) = data.val (data.dims.map P) := by
  obtain ⟨k, g1, gt⟩ := generateKernel_da onesWindow 0 kern hk data.dims hd.nodup hsub
  have hn' : KNonneg k := by
    intro j hj
    obtain ⟨h2, h3⟩ := transposed_val _ k hk data.dims _ gt j hj
    rw [h3]
    exact hn _ h2
  have hsh : k.shape = data.dims.map k.size := by rw [shape_eq k gt.ok, gt.dims]
  have hone : ∀ d ∈ data.dims, d ∉ kern.dims → k.size d = 1 := fun d h1 h2 => by rw [gt.new d h1 h2]; rfl
  have hp' : ∃ j, InShape k.shape j ∧ 0 < k.val j := by
    obtain ⟨pos, p1, p2⟩ := hpos
    refine ⟨data.dims.map (fun d => if d ∈ kern.dims then pos d else 0), ?_, ?_⟩
    · rw [hsh]
      apply inShape_map
      intro d hdd
      by_cases h : d ∈ kern.dims
      · rw [if_pos h, (gt.sizes d h).2]; exact p1 d h
      · rw [if_neg h, hone d hdd h]; omega
    · have := gt.vals (fun d => if d ∈ kern.dims then pos d else 0)
      unfold LArr.at at this p2
      rw [gt.dims] at this
      rw [this]
      have e : kern.dims.map (fun d => if d ∈ kern.dims then pos d else 0) = kern.dims.map pos := List.map_congr_left (fun d h => by rw [if_pos h])
      rw [e]
      exact p2
  obtain ⟨r, e, h1, h2, h3⟩ := C234_mean data b a hf (.da kern) k g1 hn' hp' (symmetric_transposed kern k hk data.dims gt hs) (by rw [hd.len, gt.ok.len, gt.dims])
  refine ⟨r, e, h1, h2, ?_⟩
  intro P hP hin
  apply h3
  · rw [shape_eq data hd]
    exact inShape_map _ _ _ hP
  · rw [hsh, shape_eq data hd]
    have ins : ∀ (L : List String) (S T U : String → Nat), (∀ d ∈ L, S d / 2 ≤ U d ∧ U d + S d / 2 < T d) → KernelInside (L.map S) (L.map T) (L.map U) := by
      intro L S T U
      induction L with
      | nil => intro _; trivial
      | cons x xs ih =>
        intro h
        exact ⟨(h x (by simp)).1, (h x (by simp)).2, ih (fun d hd => h d (by simp [hd]))⟩
    apply ins
    intro d hdd
    by_cases h : d ∈ kern.dims
    · rw [(gt.sizes d h).2]; exact hin d h
    · rw [hone d hdd h]
      have := hP d hdd
      omega

/-- a 1-D kernel of odd size that reads the same in both directions, without negative weight, with a weight at its centre -/
structure EvenWindow (v : List ℚ) : Prop where
  odd : v.length % 2 = 1
  even : v.reverse = v
  nonneg : ∀ x ∈ v, 0 ≤ x
  centre : 0 < v.getD (v.length / 2) 0

theorem reverse_getD (v : List ℚ) (h : v.reverse = v) (i : Nat) (hi : i < v.length) : v.getD (v.length - 1 - i) 0 = v.getD i 0 := by
  conv => rhs; rw [← h]
  rw [List.getD_eq_getElem?_getD, List.getD_eq_getElem?_getD, List.getElem?_reverse hi]

theorem prodAt_mirror : ∀ (vs : List (List ℚ)) (idx : List Nat), (∀ v ∈ vs, EvenWindow v) → InShape (vs.map List.length) idx →
    prodAt vs (mirrorIdx (vs.map List.length) idx) = prodAt vs idx ∧ 0 ≤ prodAt vs idx := by
  intro vs
  induction vs with
  | nil =>
    intro idx _ h
    match idx, h with
    | [], _ => exact ⟨rfl, by simp [prodAt]⟩
  | cons v vs ih =>
    intro idx hv h
    match idx, h with
    | i :: is, h =>
      obtain ⟨h1, h2⟩ := h
      obtain ⟨i1, i2⟩ := ih is (fun v hv' => hv v (by simp [hv'])) h2
      have e := hv v (by simp)
      unfold prodAt at i1 i2 ⊢
      simp only [List.map_cons, mirrorIdx, List.zipWith_cons_cons, List.prod_cons]
      rw [i1, reverse_getD v e.even i h1]
      exact ⟨rfl, mul_nonneg (getD_nonneg v e.nonneg i) i2⟩

theorem prodAt_centre : ∀ (vs : List (List ℚ)), (∀ v ∈ vs, EvenWindow v) → InShape (vs.map List.length) (vs.map (fun v => v.length / 2)) ∧ 0 < prodAt vs (vs.map (fun v => v.length / 2)) := by
  intro vs
  induction vs with
  | nil => intro _; exact ⟨trivial, by simp [prodAt]⟩
  | cons v vs ih =>
    intro hv
    obtain ⟨i1, i2⟩ := ih (fun v hv' => hv v (by simp [hv']))
    have e := hv v (by simp)
    have ho := e.odd
    refine ⟨⟨by show v.length / 2 < v.length; omega, i1⟩, ?_⟩
    unfold prodAt at i2 ⊢
    simp only [List.map_cons, List.zipWith_cons_cons, List.prod_cons]
    exact mul_pos e.centre i2

theorem prodKernel_even {k : LArr ℚ} {vs : List (List ℚ)} (h : ProdKernel k vs) (hv : ∀ v ∈ vs, EvenWindow v) :
    MirrorKernel k ∧ KNonneg k ∧ ∃ j, InShape k.shape j ∧ 0 < k.val j := by
  have hs := h.shape
  refine ⟨⟨?_, ?_⟩, ?_, ?_⟩
  · intro n hn
    rw [hs, List.mem_map] at hn
    obtain ⟨v, hv', rfl⟩ := hn
    exact (hv v hv').odd
  · intro j hj
    have hj' := hj
    rw [hs] at hj'
    have hm : InShape k.shape (mirrorIdx k.shape j) := by
      clear hs h hv
      have : ∀ (ns j : List Nat), InShape ns j → InShape ns (mirrorIdx ns j) := by
        intro ns
        induction ns with
        | nil => intro j hj; match j, hj with | [], _ => trivial
        | cons n ns ih =>
          intro j hj
          match j, hj with
          | j :: js, hj => exact ⟨by have := hj.1; omega, ih js hj.2⟩
      exact this _ _ hj
    rw [h.val _ hm, h.val _ hj, hs]
    exact (prodAt_mirror vs j hv hj').1
  · intro j hj
    rw [h.val _ hj]
    exact (prodAt_mirror vs j hv (by rw [← hs]; exact hj)).2
  · obtain ⟨c1, c2⟩ := prodAt_centre vs hv
    refine ⟨_, by rw [hs]; exact c1, ?_⟩
    rw [h.val _ (by rw [hs]; exact c1)]
    exact c2

theorem inside_of (L : List String) (S T U : String → Nat) (h : ∀ d ∈ L, S d / 2 ≤ U d ∧ U d + S d / 2 < T d) : KernelInside (L.map S) (L.map T) (L.map U) := by
  induction L with
  | nil => trivial
  | cons x xs ih => exact ⟨(h x (by simp)).1, (h x (by simp)).2, ih (fun d hd => h d (by simp [hd]))⟩

/-- **C234** (windows): the same for a kernel made from the specifications of one or two dimensions of the data: a size, a list of weights, whose 1-D kernels are symmetric, of odd sizes, without negative weight and with a weight at the centre
(a running mean over an odd number of points for instance). -/
theorem C234_windows (data : LArr V) (hd : data.Ok) (b : ℚ) (a : List ℚ) (hf : Complete data (linearField b a)) (d1 d2 : String) (hne : d1 ≠ d2) (h1 : d1 ∈ data.dims) (h2 : d2 ∈ data.dims)
    (s t : K1) (v w : List ℚ) (hs : Kernel1dOf onesWindow 0 s v) (ht : Kernel1dOf onesWindow 0 t w) (ev : EvenWindow v) (ew : EvenWindow w) :
    (∃ r, convolve data (.dict [(d1, s)]) true = .ok r ∧ r.dims = data.dims ∧ r.shape = data.shape ∧
      ∀ P : String → Nat, (∀ d ∈ data.dims, P d < data.size d) → v.length / 2 ≤ P d1 → P d1 + v.length / 2 < data.size d1 → r.val (data.dims.map P) = data.val (data.dims.map P)) ∧
    (∃ r, convolve data (.dict [(d1, s), (d2, t)]) true = .ok r ∧ r.dims = data.dims ∧ r.shape = data.shape ∧
      ∀ P : String → Nat, (∀ d ∈ data.dims, P d < data.size d) → v.length / 2 ≤ P d1 → P d1 + v.length / 2 < data.size d1 →
        w.length / 2 ≤ P d2 → P d2 + w.length / 2 < data.size d2 → r.val (data.dims.map P) = data.val (data.dims.map P)) := by
  have e1 : EvenWindow [1] := ⟨rfl, rfl, by simp, by simp⟩
  have main : ∀ (spec : KSpec) (k : LArr ℚ) (W : String → List ℚ), generateKernel onesWindow 0 spec data.dims = .ok k → ProdKernel k (data.dims.map W) → (∀ d ∈ data.dims, EvenWindow (W d)) →
      ∃ r, convolve data spec true = .ok r ∧ r.dims = data.dims ∧ r.shape = data.shape ∧
        ∀ P : String → Nat, (∀ d ∈ data.dims, P d < data.size d) → (∀ d ∈ data.dims, (W d).length / 2 ≤ P d ∧ P d + (W d).length / 2 < data.size d) →
          r.val (data.dims.map P) = data.val (data.dims.map P) := by
    intro spec k W hk hp hW
    obtain ⟨m1, m2, m3⟩ := prodKernel_even hp (by
      intro u hu
      rw [List.mem_map] at hu
      obtain ⟨d, hd', rfl⟩ := hu
      exact hW d hd')
    obtain ⟨r, r1, r2, r3, r4⟩ := C234_mean data b a hf spec k hk m2 m3 m1 (by rw [hd.len, prodKernel_len hp])
    refine ⟨r, r1, r2, r3, ?_⟩
    intro P hP hin
    apply r4
    · rw [shape_eq data hd]
      exact inShape_map _ _ _ hP
    · rw [hp.shape, List.map_map, shape_eq data hd]
      exact inside_of _ (List.length ∘ W) _ _ hin
  constructor
  · obtain ⟨k, k1, k2⟩ := kernel_one data.dims hd.nodup d1 h1 s v hs
    obtain ⟨r, r1, r2, r3, r4⟩ := main _ k _ k1 k2 (by intro d _; unfold oneDim; split <;> assumption)
    refine ⟨r, r1, r2, r3, fun P hP a1 a2 => r4 P hP ?_⟩
    intro d hdd
    unfold oneDim
    split
    · rename_i h; subst h; exact ⟨a1, a2⟩
    · have := hP d hdd
      simp only [List.length_cons, List.length_nil]
      omega
  · obtain ⟨k, k1, k2⟩ := kernel_two data.dims hd.nodup d1 d2 hne h1 h2 s t v w hs ht
    obtain ⟨r, r1, r2, r3, r4⟩ := main _ k _ k1 k2 (by intro d _; unfold twoDims; split <;> [assumption; split <;> assumption])
    refine ⟨r, r1, r2, r3, fun P hP a1 a2 b1 b2 => r4 P hP ?_⟩
    intro d hdd
    unfold twoDims
    split
    · rename_i h; subst h; exact ⟨a1, a2⟩
    · split
      · rename_i h; subst h; exact ⟨b1, b2⟩
      · have := hP d hdd
        simp only [List.length_cons, List.length_nil]
        omega

/-- the hypotheses of **C234** (windows) are met by running means over odd numbers of points and by lists of weights -/
example (n : Nat) : Kernel1dOf onesWindow 0 (.int (2 * n + 1 : Nat)) (onesWindow (2 * n + 1)) ∧ EvenWindow (onesWindow (2 * n + 1)) ∧ EvenWindow [1, 2, 3, 2, 1] := by
  refine ⟨.int _, ⟨?_, ?_, ?_, ?_⟩, ⟨rfl, rfl, by simp, by norm_num⟩⟩
  · simp only [onesWindow, List.length_replicate]; omega
  · simp [onesWindow]
  · intro x hx
    rw [List.eq_of_mem_replicate hx]; norm_num
  · rw [onesWindow, List.length_replicate, List.getD_eq_getElem?_getD, List.getElem?_replicate, if_pos (by omega)]
    norm_num

/-- the hypotheses of **C234** are met by a field of two dimensions and the kernel `[1, 2, 1]` along one of them -/
example :
    let data : LArr V := ⟨["y", "x"], [3, 4], fun p => some (linearField 1 [2, -3] p)⟩
    let kern : LArr ℚ := ⟨["x"], [3], fun j => if j.getD 0 0 = 1 then 2 else 1⟩
    let P : String → Nat := fun d => if d = "x" then 2 else 0
    data.Ok ∧ Complete data (linearField 1 [2, -3]) ∧ kern.Ok ∧ KNonneg kern ∧ 0 < kern.at (fun _ => 1) ∧ MirrorKernel kern ∧
    (∀ d ∈ kern.dims, kern.size d / 2 ≤ P d ∧ P d + kern.size d / 2 < data.size d) ∧ data.val [0, 2] = some (-5) := by
  refine ⟨⟨by decide, rfl⟩, fun q _ => rfl, ⟨by decide, rfl⟩, ?_, ?_, ⟨by decide, ?_⟩, by decide, ?_⟩
  · intro j _
    dsimp only
    split <;> norm_num
  · simp [LArr.at]
  · intro j hj
    match j, hj with
    | [j], hj =>
      have : j < 3 := hj.1
      have : j = 0 ∨ j = 1 ∨ j = 2 := by omega
      rcases this with rfl | rfl | rfl <;> rfl
  · norm_num [linearField]

end Xoa
