import Verif.FilterKernelProps
import Verif.FilterTurnProps
import Mathlib.Algebra.BigOperators.Group.Finset.Basic
import Mathlib.Algebra.BigOperators.GroupWithZero.Finset

/-!
# C222: filtering along two dimensions at once, or along one and then along the other

No new model: `convolve` of `Filter.lean` (xoa/filter.py:466-552) with a kernel given per dimension (`generate_kernel`, xoa/filter.py:293-427).
-/

namespace Xoa

/-! ## kernels that are products of 1-D kernels -/

/-- weight given by a 1-D kernel to the datum at `q` for the result at `p` -/
def lineW (v : List ℚ) (p q : Nat) : ℚ :=
  if q ≤ p + (v.length - 1) / 2 ∧ p + (v.length - 1) / 2 - q < v.length then v.getD (p + (v.length - 1) / 2 - q) 0 else 0

/-- product of the weights along each dimension -/
def boxW : List (List ℚ) → List Nat → List Nat → ℚ
  | [], [], [] => 1
  | v :: vs, p :: ps, q :: qs => lineW v p q * boxW vs ps qs
  | _, _, _ => 0

theorem elim_map {α β : Type} (o : Option α) (f : α → β) (g : β → ℚ) : (o.map f).elim 0 g = o.elim 0 (fun a => g (f a)) := by cases o <;> rfl

theorem elim_mul {α : Type} (o : Option α) (c : ℚ) (g : α → ℚ) : o.elim 0 (fun a => c * g a) = c * o.elim 0 g := by cases o <;> simp

theorem kIdx_prodAt (vs : List (List ℚ)) (p q : List Nat) : (kIdx (vs.map List.length) p q).elim 0 (prodAt vs) = boxW vs p q := by
  induction vs generalizing p q with
  | nil =>
    cases p <;> cases q <;> simp [kIdx, boxW, prodAt]
  | cons v vs ih =>
    cases p with
    | nil => simp [kIdx, boxW]
    | cons a p => cases q with
      | nil => simp [kIdx, boxW]
      | cons b q =>
        simp only [List.map_cons, kIdx, boxW, lineW]
        by_cases h : b ≤ a + (v.length - 1) / 2 ∧ a + (v.length - 1) / 2 - b < v.length
        · rw [if_pos h, if_pos h, elim_map, ← ih p q, ← elim_mul]
          rfl
        · rw [if_neg h, if_neg h]; simp

/-- the kernel is the product of the 1-D kernels `vs` -/
structure ProdKernel (k : LArr ℚ) (vs : List (List ℚ)) : Prop where
  shape : k.shape = vs.map List.length
  val : ∀ idx, InShape k.shape idx → k.val idx = prodAt vs idx

theorem ProdKernel.kAt {k : LArr ℚ} {vs : List (List ℚ)} (h : ProdKernel k vs) (p q : List Nat) : Xoa.kAt k p q = boxW vs p q := by
  rw [← kIdx_prodAt, ← h.shape]
  unfold Xoa.kAt
  cases hj : kIdx k.shape p q with
  | none => rfl
  | some j => exact h.val j (kIdx_inShape _ _ _ _ hj)

theorem sum_positions_cons (n : Nat) (ns : List Nat) (g : List Nat → ℚ) :
    ((positions (n :: ns)).map g).sum = ((List.range n).map (fun i => ((positions ns).map (fun r => g (i :: r))).sum)).sum := by
  simp only [positions]
  generalize List.range n = l
  induction l with
  | nil => simp
  | cons a l ih =>
    simp only [List.flatMap_cons, List.map_append, List.sum_append, List.map_cons, List.sum_cons, List.map_map, ih]
    rfl

theorem sum_mul_right {α : Type} (l : List α) (f : α → ℚ) (c : ℚ) : (l.map (fun a => f a * c)).sum = (l.map f).sum * c := by
  induction l with
  | nil => simp
  | cons a l ih => simp only [List.map_cons, List.sum_cons, ih]; ring

theorem sum_mul_left' {α : Type} (l : List α) (f : α → ℚ) (c : ℚ) : (l.map (fun a => c * f a)).sum = c * (l.map f).sum := by
  induction l with
  | nil => simp
  | cons a l ih => simp only [List.map_cons, List.sum_cons, ih]; ring

theorem sum_swap {α β : Type} (l : List α) (m : List β) (f : α → β → ℚ) :
    (l.map (fun a => (m.map (fun b => f a b)).sum)).sum = (m.map (fun b => (l.map (fun a => f a b)).sum)).sum := by
  induction l with
  | nil => simp
  | cons a l ih =>
    simp only [List.map_cons, List.sum_cons, ih]
    rw [← List.sum_map_add]

theorem lineW_one (p q : Nat) : lineW [1] p q = if p = q then 1 else 0 := by
  unfold lineW
  by_cases h : p = q
  · subst h; simp
  · rw [if_neg h, if_neg]
    simp only [List.length_singleton]
    omega

theorem sum_range_single (n i : Nat) (h : i < n) (f : Nat → ℚ) : ((List.range n).map (fun r => if i = r then f r else 0)).sum = f i := by
  induction n with
  | zero => omega
  | succ n ih =>
    rw [List.range_succ, List.map_append, List.sum_append]
    by_cases hi : i = n
    · subst hi
      have : ((List.range i).map (fun r => if i = r then f r else 0)).sum = 0 := by
        rw [List.sum_eq_zero]
        intro x hx
        simp only [List.mem_map, List.mem_range] at hx
        obtain ⟨r, hr, rfl⟩ := hx
        rw [if_neg (by omega)]
      rw [this]; simp
    · rw [ih (by omega)]; simp [hi]

/-- along one dimension, only one of the two filters does something -/
inductive ApartDims : List (List ℚ) → List (List ℚ) → List (List ℚ) → Prop
  | nil : ApartDims [] [] []
  | first {as bs cs} (v : List ℚ) (h : ApartDims as bs cs) : ApartDims (v :: as) ([1] :: bs) (v :: cs)
  | second {as bs cs} (v : List ℚ) (h : ApartDims as bs cs) : ApartDims ([1] :: as) (v :: bs) (v :: cs)

theorem line_first (n p q : Nat) (hp : p < n) (v : List ℚ) : ((List.range n).map (fun r => lineW [1] p r * lineW v r q)).sum = lineW v p q := by
  rw [← sum_range_single n p hp (fun r => lineW v r q)]
  congr 1
  apply List.map_congr_left
  intro r _
  rw [lineW_one]
  by_cases h : p = r <;> simp [h]

theorem line_second (n p q : Nat) (hq : q < n) (v : List ℚ) : ((List.range n).map (fun r => lineW v p r * lineW [1] r q)).sum = lineW v p q := by
  rw [← sum_range_single n q hq (fun r => lineW v p r)]
  congr 1
  apply List.map_congr_left
  intro r _
  rw [lineW_one]
  by_cases h : q = r
  · simp [h]
  · rw [if_neg h, if_neg (fun h' => h h'.symm), mul_zero]

/-- the weights of the two filters, one after the other, are those of the product -/
theorem boxW_comp {as bs cs : List (List ℚ)} (h : ApartDims as bs cs) (shape p q : List Nat) (hp : InShape shape p) (hq : InShape shape q) :
    ((positions shape).map (fun r => boxW bs p r * boxW as r q)).sum = boxW cs p q := by
  induction h generalizing shape p q with
  | nil =>
    cases shape with
    | nil => cases p <;> cases q <;> simp_all [InShape, positions, boxW]
    | cons n ns =>
      cases p with
      | nil => simp [InShape] at hp
      | cons a p => simp [boxW]
  | first v _ ih =>
    cases shape with
    | nil => cases p <;> simp_all [InShape, positions, boxW]
    | cons n ns =>
      cases p with
      | nil => simp [InShape] at hp
      | cons a p => cases q with
        | nil => simp [InShape] at hq
        | cons b q =>
          rw [sum_positions_cons]
          simp only [boxW]
          rw [← line_first n a b hp.1 v, ← ih ns p q hp.2 hq.2, ← sum_mul_right]
          congr 1
          apply List.map_congr_left
          intro i _
          rw [← sum_mul_left']
          congr 1
          apply List.map_congr_left
          intro r _
          ring
  | second v _ ih =>
    cases shape with
    | nil => cases p <;> simp_all [InShape, positions, boxW]
    | cons n ns =>
      cases p with
      | nil => simp [InShape] at hp
      | cons a p => cases q with
        | nil => simp [InShape] at hq
        | cons b q =>
          rw [sum_positions_cons]
          simp only [boxW]
          rw [← line_second n a b hq.1 v, ← ih ns p q hp.2 hq.2, ← sum_mul_right]
          congr 1
          apply List.map_congr_left
          intro i _
          rw [← sum_mul_left']
          congr 1
          apply List.map_congr_left
          intro r _
          ring

/-- sum of the weights given at a point -/
def boxSum (vs : List (List ℚ)) (shape p : List Nat) : ℚ := ((positions shape).map (fun q => boxW vs p q)).sum

theorem boxSum_cons (v : List ℚ) (vs : List (List ℚ)) (n a : Nat) (ns p : List Nat) :
    boxSum (v :: vs) (n :: ns) (a :: p) = ((List.range n).map (fun i => lineW v a i)).sum * boxSum vs ns p := by
  unfold boxSum
  rw [sum_positions_cons, ← sum_mul_right]
  congr 1
  apply List.map_congr_left
  intro i _
  simp only [boxW]
  rw [← sum_mul_left']

theorem sum_line_one (n a : Nat) (h : a < n) : ((List.range n).map (fun i => lineW [1] a i)).sum = 1 := by
  refine Eq.trans ?_ (sum_range_single n a h (fun _ => (1 : ℚ)))
  congr 1
  apply List.map_congr_left
  intro i _
  rw [lineW_one]

/-- the second filter takes data at which the first one has the same weights -/
theorem boxSum_same {as bs cs : List (List ℚ)} (h : ApartDims as bs cs) (shape p r : List Nat) (hp : InShape shape p) (hr : InShape shape r)
    (h0 : boxW bs p r ≠ 0) : boxSum as shape r = boxSum as shape p := by
  induction h generalizing shape p r with
  | nil =>
    cases shape with
    | nil => cases p <;> cases r <;> simp_all [InShape]
    | cons n ns =>
      cases p with
      | nil => simp [InShape] at hp
      | cons a p => simp [boxW] at h0
  | first v _ ih =>
    cases shape with
    | nil => cases p <;> simp_all [InShape, boxW]
    | cons n ns =>
      cases p with
      | nil => simp [InShape] at hp
      | cons a p => cases r with
        | nil => simp [InShape] at hr
        | cons b r =>
          simp only [boxW] at h0
          rw [lineW_one] at h0
          by_cases hab : a = b
          · subst hab
            rw [boxSum_cons, boxSum_cons, ih ns p r hp.2 hr.2 (right_ne_zero_of_mul h0)]
          · simp [hab] at h0
  | second v _ ih =>
    cases shape with
    | nil => cases p <;> simp_all [InShape, boxW]
    | cons n ns =>
      cases p with
      | nil => simp [InShape] at hp
      | cons a p => cases r with
        | nil => simp [InShape] at hr
        | cons b r =>
          simp only [boxW] at h0
          rw [boxSum_cons, boxSum_cons, ih ns p r hp.2 hr.2 (right_ne_zero_of_mul h0), sum_line_one n a hp.1, sum_line_one n b hr.1]

theorem boxSum_mul {as bs cs : List (List ℚ)} (h : ApartDims as bs cs) (shape p : List Nat) (hp : InShape shape p) :
    boxSum cs shape p = boxSum as shape p * boxSum bs shape p := by
  induction h generalizing shape p with
  | nil =>
    cases shape with
    | nil => cases p <;> simp_all [InShape, boxSum, positions, boxW]
    | cons n ns =>
      cases p with
      | nil => simp [InShape] at hp
      | cons a p => simp [boxSum, boxW]
  | first v _ ih =>
    cases shape with
    | nil => cases p <;> simp_all [InShape, boxSum, positions, boxW]
    | cons n ns =>
      cases p with
      | nil => simp [InShape] at hp
      | cons a p => rw [boxSum_cons, boxSum_cons, boxSum_cons, ih ns p hp.2, sum_line_one n a hp.1]; ring
  | second v _ ih =>
    cases shape with
    | nil => cases p <;> simp_all [InShape, boxSum, positions, boxW]
    | cons n ns =>
      cases p with
      | nil => simp [InShape] at hp
      | cons a p => rw [boxSum_cons, boxSum_cons, boxSum_cons, ih ns p hp.2, sum_line_one n a hp.1]; ring

/-- two convolutions one after the other -/
theorem conv_comp {as bs cs : List (List ℚ)} (h : ApartDims as bs cs) {ka kb kc : LArr ℚ} (ha : ProdKernel ka as) (hb : ProdKernel kb bs) (hc : ProdKernel kc cs)
    (shape p : List Nat) (hp : InShape shape p) (f : List Nat → ℚ) : conv shape (fun r => conv shape f ka r) kb p = conv shape f kc p := by
  unfold conv
  have e : ∀ r, kAt kb p r * ((positions shape).map (fun q => kAt ka r q * f q)).sum = ((positions shape).map (fun q => boxW bs p r * boxW as r q * f q)).sum := by
    intro r
    rw [← sum_mul_left']
    congr 1
    apply List.map_congr_left
    intro q _
    rw [ha.kAt, hb.kAt]; ring
  rw [List.map_congr_left (fun r _ => e r), sum_swap]
  congr 1
  apply List.map_congr_left
  intro q hq
  rw [sum_mul_right, boxW_comp h shape p q hp ((mem_positions _ _).1 hq), hc.kAt]

/-! ## the kernel made for one or two dimensions -/

theorem prodAt_map (dims : List String) (V : String → List ℚ) (pos : String → Nat) :
    prodAt (dims.map V) (dims.map pos) = (dims.map (fun d => (V d).getD (pos d) 0)).prod := by
  induction dims with
  | nil => rfl
  | cons d ds ih =>
    simp only [prodAt, List.map_cons, List.zipWith_cons_cons, List.prod_cons] at ih ⊢
    rw [ih]

theorem prod_one_dim (dims : List String) (hn : dims.Nodup) (d1 : String) (h1 : d1 ∈ dims) (g : String → ℚ) (h : ∀ d ∈ dims, d ≠ d1 → g d = 1) :
    (dims.map g).prod = g d1 := by
  rw [← List.prod_toFinset g hn]
  exact Finset.prod_eq_single d1 (fun b hb hne => h b (by simpa using hb) hne) (fun hh => absurd (by simpa using h1) hh)

theorem prod_two_dims (dims : List String) (hn : dims.Nodup) (d1 d2 : String) (hne : d1 ≠ d2) (h1 : d1 ∈ dims) (h2 : d2 ∈ dims) (g : String → ℚ)
    (h : ∀ d ∈ dims, d ≠ d1 → d ≠ d2 → g d = 1) : (dims.map g).prod = g d1 * g d2 := by
  rw [← List.prod_toFinset g hn]
  exact Finset.prod_eq_mul d1 d2 hne (fun b hb hc => h b (by simpa using hb) hc.1 hc.2) (fun hh => absurd (by simpa using h1) hh)
    (fun hh => absurd (by simpa using h2) hh)

theorem prodKernel_of (k : LArr ℚ) (hk : k.Ok) (dims : List String) (hd : k.dims = dims) (V : String → List ℚ) (hs : ∀ d ∈ dims, k.size d = (V d).length)
    (hv : ∀ pos : String → Nat, (∀ d ∈ dims, pos d < k.size d) → k.at pos = (dims.map (fun d => (V d).getD (pos d) 0)).prod) :
    ProdKernel k (dims.map V) := by
  subst hd
  have e : k.shape = (k.dims.map V).map List.length := by
    rw [shape_eq k hk, List.map_map]
    exact List.map_congr_left hs
  refine ⟨e, fun idx hi => ?_⟩
  obtain ⟨h1, h2⟩ := inShape_named hk hi
  have h3 := hv (look k.dims idx) h1
  rw [← prodAt_map] at h3
  have h4 : k.dims.map (look k.dims idx) = idx := map_look _ _ hk.nodup (by rw [inShape_length _ _ hi, hk.len])
  unfold LArr.at at h3
  rw [h4] at h3
  exact h3

/-- 1-D kernels along the dimensions: `v` along `d1`, nothing along the others -/
def oneDim (d1 : String) (v : List ℚ) (d : String) : List ℚ := if d = d1 then v else [1]

/-- 1-D kernels along the dimensions: `v` along `d1`, `w` along `d2`, nothing along the others -/
def twoDims (d1 d2 : String) (v w : List ℚ) (d : String) : List ℚ := if d = d1 then v else if d = d2 then w else [1]

theorem kernel_one (dims : List String) (hn : dims.Nodup) (d1 : String) (h1 : d1 ∈ dims) (s : K1) (v : List ℚ) (hs : Kernel1dOf onesWindow 0 s v) :
    ∃ k, generateKernel onesWindow 0 (.dict [(d1, s)]) dims = .ok k ∧ ProdKernel k (dims.map (oneDim d1 v)) := by
  obtain ⟨k, hk, hok, hd, hz, ho, hat⟩ := C27_tensor_product_partial onesWindow 0 [(d1, s)] [v] dims hn (by simp) (by simpa using h1)
    (.cons hs .nil) (by simp) (by simp)
  refine ⟨k, hk, prodKernel_of k hok dims hd _ ?_ ?_⟩
  · intro d hdd
    by_cases h : d = d1
    · subst h; rw [hz d v (by simp)]; simp [oneDim]
    · rw [ho d hdd (by simpa using h)]; simp [oneDim, h]
  · intro pos hp
    rw [hat pos hp, prod_one_dim dims hn d1 h1]
    · simp [oneDim]
    · intro d hdd hne
      have := hp d hdd
      rw [ho d hdd (by simpa using hne)] at this
      simp [oneDim, hne, show pos d = 0 by omega]

theorem kernel_two (dims : List String) (hn : dims.Nodup) (d1 d2 : String) (hne : d1 ≠ d2) (h1 : d1 ∈ dims) (h2 : d2 ∈ dims) (s t : K1) (v w : List ℚ)
    (hs : Kernel1dOf onesWindow 0 s v) (ht : Kernel1dOf onesWindow 0 t w) :
    ∃ k, generateKernel onesWindow 0 (.dict [(d1, s), (d2, t)]) dims = .ok k ∧ ProdKernel k (dims.map (twoDims d1 d2 v w)) := by
  obtain ⟨k, hk, hok, hd, hz, ho, hat⟩ := C27_tensor_product_partial onesWindow 0 [(d1, s), (d2, t)] [v, w] dims hn (by simpa using hne)
    (by simp [h1, h2]) (.cons hs (.cons ht .nil)) (by simp) (by simp)
  refine ⟨k, hk, prodKernel_of k hok dims hd _ ?_ ?_⟩
  · intro d hdd
    by_cases h : d = d1
    · subst h; rw [hz d v (by simp)]; simp [twoDims]
    · by_cases h' : d = d2
      · subst h'; rw [hz d w (by simp)]; simp [twoDims, h]
      · rw [ho d hdd (by simp [h, h'])]; simp [twoDims, h, h']
  · intro pos hp
    rw [hat pos hp, prod_two_dims dims hn d1 d2 hne h1 h2]
    · simp [twoDims, hne.symm]
    · intro d hdd hn1 hn2
      have := hp d hdd
      rw [ho d hdd (by simp [hn1, hn2])] at this
      simp [twoDims, hn1, hn2, show pos d = 0 by omega]

theorem apartDims_of (dims : List String) (d1 d2 : String) (hne : d1 ≠ d2) (v w : List ℚ) :
    ApartDims (dims.map (oneDim d1 v)) (dims.map (oneDim d2 w)) (dims.map (twoDims d1 d2 v w)) := by
  induction dims with
  | nil => exact .nil
  | cons d ds ih =>
    simp only [List.map_cons]
    by_cases h : d = d1
    · have e1 : oneDim d1 v d = v := by simp [oneDim, h]
      have e2 : oneDim d2 w d = [1] := by simp [oneDim, h, hne]
      have e3 : twoDims d1 d2 v w d = v := by simp [twoDims, h]
      rw [e1, e2, e3]; exact .first v ih
    · have e1 : oneDim d1 v d = [1] := by simp [oneDim, h]
      have e3 : twoDims d1 d2 v w d = oneDim d2 w d := by simp [twoDims, oneDim, h]
      rw [e1, e3]; exact .second _ ih

/-! ## the results -/

/-- all the data are available: `f` gives their values -/
def Complete (data : LArr V) (f : List Nat → ℚ) : Prop := ∀ q, InShape data.shape q → data.val q = some (f q)

theorem conv_congr (shape : List Nat) (k : LArr ℚ) (f g : List Nat → ℚ) (h : ∀ q, InShape shape q → f q = g q) (p : List Nat) :
    conv shape f k p = conv shape g k p := by
  unfold conv
  congr 1
  apply List.map_congr_left
  intro q hq
  rw [h q ((mem_positions _ _).1 hq)]

theorem convolveNd_complete (data : LArr V) (f : List Nat → ℚ) (hf : Complete data f) (k : LArr ℚ) (hl : data.shape.length = k.shape.length) (normalize : Bool) :
    ∃ r, convolveNd data k normalize = .ok r ∧ r.dims = data.dims ∧ r.shape = data.shape ∧
      ∀ p, r.val p = if normalize then
        V.div (some (conv data.shape f k p)) (some (min (max (conv data.shape (fun _ => 1) k p) 0) (kSum k))) else some (conv data.shape f k p) := by
  unfold convolveNd
  rw [if_neg (by simpa using hl)]
  refine ⟨_, rfl, rfl, rfl, fun p => ?_⟩
  dsimp only
  have hm : (positions data.shape).any (fun q => (data.val q).isNone) = false := by
    rw [List.any_eq_false]
    intro q hq
    rw [hf q ((mem_positions _ _).1 hq)]; simp
  rw [hm, Bool.false_and, if_neg (by simp)]
  rw [conv_congr data.shape k (fun q => (data.val q).getD 0) f (fun q hq => by rw [hf q hq]; rfl),
    conv_congr data.shape k (fun q => if (data.val q).isNone then 0 else 1) (fun _ => 1) (fun q hq => by rw [hf q hq]; rfl)]

theorem prodKernel_len {k : LArr ℚ} {dims : List String} {V : String → List ℚ} (h : ProdKernel k (dims.map V)) : k.shape.length = dims.length := by
  rw [h.shape]; simp

/-- **C222, plain sums.** Complete data filtered along two dimensions at once are the data filtered along the first one, then along the second one. The 1-D kernels are of any sign and size;
the data may have other dimensions. -/
theorem C222_plain (data : LArr V) (hok : data.Ok) (f : List Nat → ℚ) (hf : Complete data f) (d1 d2 : String) (hne : d1 ≠ d2) (h1 : d1 ∈ data.dims) (h2 : d2 ∈ data.dims)
    (s t : K1) (hs : ∃ v, Kernel1dOf onesWindow 0 s v) (ht : ∃ w, Kernel1dOf onesWindow 0 t w) :
    ∃ r r1 r2, convolve data (.dict [(d1, s), (d2, t)]) false = .ok r ∧ convolve data (.dict [(d1, s)]) false = .ok r1 ∧
      convolve r1 (.dict [(d2, t)]) false = .ok r2 ∧ r.dims = data.dims ∧ r2.dims = data.dims ∧ r.shape = data.shape ∧ r2.shape = data.shape ∧
      ∀ p, InShape data.shape p → r.val p ≠ none ∧ r2.val p = r.val p := by
  obtain ⟨v, hs⟩ := hs
  obtain ⟨w, ht⟩ := ht
  obtain ⟨kc, ec, pc⟩ := kernel_two data.dims hok.nodup d1 d2 hne h1 h2 s t v w hs ht
  obtain ⟨ka, ea, pa⟩ := kernel_one data.dims hok.nodup d1 h1 s v hs
  obtain ⟨kb, eb, pb⟩ := kernel_one data.dims hok.nodup d2 h2 t w ht
  obtain ⟨r, er, rd, rs, rv⟩ := convolveNd_complete data f hf kc (by rw [prodKernel_len pc, hok.len]) false
  obtain ⟨r1, er1, r1d, r1s, r1v⟩ := convolveNd_complete data f hf ka (by rw [prodKernel_len pa, hok.len]) false
  have hf1 : Complete r1 (conv data.shape f ka) := fun q _ => by rw [r1v]; rfl
  obtain ⟨r2, er2, r2d, r2s, r2v⟩ := convolveNd_complete r1 _ hf1 kb (by rw [r1s, prodKernel_len pb, hok.len]) false
  refine ⟨r, r1, r2, ?_, ?_, ?_, rd, by rw [r2d, r1d], rs, by rw [r2s, r1s], fun p hp => ⟨?_, ?_⟩⟩
  · unfold convolve; rw [ec]; exact er
  · unfold convolve; rw [ea]; exact er1
  · unfold convolve; rw [r1d, eb]; exact er2
  · rw [rv]; simp
  · rw [r2v, rv, r1s]
    have := conv_comp (apartDims_of data.dims d1 d2 hne v w) pa pb pc data.shape p hp f
    simp only [Bool.false_eq_true, if_false]
    rw [← this]

/-! ### normalised -/

/-- 1-D kernel without negative weight, with a weight at its centre (position `(size - 1) // 2`) -/
def Centred (v : List ℚ) : Prop := (∀ x ∈ v, 0 ≤ x) ∧ 0 < v.getD ((v.length - 1) / 2) 0

theorem getD_nonneg (v : List ℚ) (h : ∀ x ∈ v, 0 ≤ x) (i : Nat) : 0 ≤ v.getD i 0 := by
  rw [List.getD_eq_getElem?_getD]
  cases h1 : v[i]? with
  | none => simp
  | some x => exact h x (List.mem_of_getElem? h1)

theorem lineW_nonneg (v : List ℚ) (h : ∀ x ∈ v, 0 ≤ x) (p q : Nat) : 0 ≤ lineW v p q := by
  unfold lineW
  split
  · exact getD_nonneg v h _
  · exact le_refl _

theorem lineW_centre (v : List ℚ) (h : Centred v) (p : Nat) : 0 < lineW v p p := by
  unfold lineW
  have hl : v ≠ [] := by
    rintro rfl
    have := h.2
    simp at this
  have hl' : 0 < v.length := List.length_pos_of_ne_nil hl
  rw [if_pos ⟨by omega, by omega⟩]
  rw [show p + (v.length - 1) / 2 - p = (v.length - 1) / 2 by omega]
  exact h.2

theorem sum_pos_of_mem {α : Type} (l : List α) (f : α → ℚ) (h : ∀ x ∈ l, 0 ≤ f x) (a : α) (ha : a ∈ l) (h0 : 0 < f a) : 0 < (l.map f).sum := by
  induction l with
  | nil => simp at ha
  | cons b l ih =>
    simp only [List.map_cons, List.sum_cons]
    have hb := h b (by simp)
    have hs : 0 ≤ (l.map f).sum := List.sum_nonneg (by
      intro x hx
      simp only [List.mem_map] at hx
      obtain ⟨y, hy, rfl⟩ := hx
      exact h y (by simp [hy]))
    rcases List.mem_cons.1 ha with rfl | hm
    · linarith
    · have := ih (fun x hx => h x (by simp [hx])) hm
      linarith

theorem boxSum_pos (vs : List (List ℚ)) (hv : ∀ v ∈ vs, Centred v) (shape p : List Nat) (hp : InShape shape p) (hl : shape.length = vs.length) : 0 < boxSum vs shape p := by
  induction vs generalizing shape p with
  | nil =>
    cases shape with
    | nil => cases p <;> simp_all [InShape, boxSum, positions, boxW]
    | cons n ns => simp at hl
  | cons v vs ih =>
    cases shape with
    | nil => simp at hl
    | cons n ns =>
      cases p with
      | nil => simp [InShape] at hp
      | cons a p =>
        rw [boxSum_cons]
        refine mul_pos ?_ (ih (fun v hv' => hv v (by simp [hv'])) ns p hp.2 (by simpa using hl))
        have hc := hv v (by simp)
        exact sum_pos_of_mem _ _ (fun i _ => lineW_nonneg v hc.1 a i) a (List.mem_range.2 hp.1) (lineW_centre v hc a)

theorem prodAt_nonneg (vs : List (List ℚ)) (hv : ∀ v ∈ vs, ∀ x ∈ v, 0 ≤ x) (idx : List Nat) : 0 ≤ prodAt vs idx := by
  induction vs generalizing idx with
  | nil => simp [prodAt]
  | cons v vs ih =>
    cases idx with
    | nil => simp [prodAt]
    | cons i idx =>
      have := ih (fun v h => hv v (by simp [h])) idx
      simp only [prodAt, List.zipWith_cons_cons, List.prod_cons] at this ⊢
      exact mul_nonneg (getD_nonneg v (hv v (by simp)) i) this

theorem conv_ones {k : LArr ℚ} {vs : List (List ℚ)} (h : ProdKernel k vs) (shape p : List Nat) : conv shape (fun _ => 1) k p = boxSum vs shape p := by
  unfold conv boxSum
  congr 1
  apply List.map_congr_left
  intro q _
  rw [h.kAt, mul_one]

theorem clip_ones {k : LArr ℚ} {vs : List (List ℚ)} (h : ProdKernel k vs) (hv : ∀ v ∈ vs, ∀ x ∈ v, 0 ≤ x) (shape p : List Nat) :
    min (max (conv shape (fun _ => 1) k p) 0) (kSum k) = boxSum vs shape p := by
  have hk : KNonneg k := fun j hj => by rw [h.val j hj]; exact prodAt_nonneg vs hv j
  have e : conv shape (fun _ => 1) k p = ((positions shape).map (fun q => kAt k p q)).sum := by
    unfold conv; simp
  have h1 := kAt_sum_le k hk shape p
  have h2 : 0 ≤ conv shape (fun _ => 1) k p := by
    rw [e]
    refine List.sum_nonneg ?_
    intro x hx
    simp only [List.mem_map] at hx
    obtain ⟨q, _, rfl⟩ := hx
    exact kAt_nonneg k hk p q
  rw [max_eq_left h2, min_eq_left (by rw [e]; exact h1), conv_ones h]

theorem centred_one : Centred [1] := ⟨by simp, by simp⟩

theorem centred_oneDim (d1 : String) (v : List ℚ) (hv : Centred v) (dims : List String) : ∀ x ∈ dims.map (oneDim d1 v), Centred x := by
  intro x hx
  simp only [List.mem_map] at hx
  obtain ⟨d, _, rfl⟩ := hx
  unfold oneDim
  split
  · exact hv
  · exact centred_one

theorem centred_twoDims (d1 d2 : String) (v w : List ℚ) (hv : Centred v) (hw : Centred w) (dims : List String) : ∀ x ∈ dims.map (twoDims d1 d2 v w), Centred x := by
  intro x hx
  simp only [List.mem_map] at hx
  obtain ⟨d, _, rfl⟩ := hx
  unfold twoDims
  split
  · exact hv
  · split
    · exact hw
    · exact centred_one

/-- the mean of the means -/
theorem mean_comp {as bs cs : List (List ℚ)} (h : ApartDims as bs cs) {ka kb kc : LArr ℚ} (ha : ProdKernel ka as) (hb : ProdKernel kb bs) (hc : ProdKernel kc cs)
    (shape p : List Nat) (hp : InShape shape p) (f : List Nat → ℚ) :
    conv shape (fun r => conv shape f ka r / boxSum as shape r) kb p / boxSum bs shape p = conv shape f kc p / boxSum cs shape p := by
  have e : conv shape (fun r => conv shape f ka r / boxSum as shape r) kb p = conv shape (fun r => conv shape f ka r) kb p / boxSum as shape p := by
    unfold conv
    rw [div_eq_mul_inv, ← sum_mul_right]
    congr 1
    apply List.map_congr_left
    intro r hr
    beta_reduce
    by_cases h0 : boxW bs p r = 0
    · rw [hb.kAt, h0]; ring
    · rw [boxSum_same h shape p r hp ((mem_positions _ _).1 hr) h0]; ring
  rw [e, conv_comp h ha hb hc shape p hp f, boxSum_mul h shape p hp, div_div]

/-- **C222, means.** Complete data averaged (`normalize=True`) along two dimensions at once are the data averaged along the first one, then along the second one, borders included,
when the kernels have no negative weight and a weight at their centre. -/
theorem C222_mean (data : LArr V) (hok : data.Ok) (f : List Nat → ℚ) (hf : Complete data f) (d1 d2 : String) (hne : d1 ≠ d2) (h1 : d1 ∈ data.dims) (h2 : d2 ∈ data.dims)
    (s t : K1) (v w : List ℚ) (hs : Kernel1dOf onesWindow 0 s v) (ht : Kernel1dOf onesWindow 0 t w) (hv : Centred v) (hw : Centred w) :
    ∃ r r1 r2, convolve data (.dict [(d1, s), (d2, t)]) true = .ok r ∧ convolve data (.dict [(d1, s)]) true = .ok r1 ∧
      convolve r1 (.dict [(d2, t)]) true = .ok r2 ∧ r.dims = data.dims ∧ r2.dims = data.dims ∧ r.shape = data.shape ∧ r2.shape = data.shape ∧
      ∀ p, InShape data.shape p → r.val p ≠ none ∧ r2.val p = r.val p := by
  obtain ⟨kc, ec, pc⟩ := kernel_two data.dims hok.nodup d1 d2 hne h1 h2 s t v w hs ht
  obtain ⟨ka, ea, pa⟩ := kernel_one data.dims hok.nodup d1 h1 s v hs
  obtain ⟨kb, eb, pb⟩ := kernel_one data.dims hok.nodup d2 h2 t w ht
  have ca := centred_oneDim d1 v hv data.dims
  have cb := centred_oneDim d2 w hw data.dims
  have cc := centred_twoDims d1 d2 v w hv hw data.dims
  obtain ⟨r, er, rd, rs, rv⟩ := convolveNd_complete data f hf kc (by rw [prodKernel_len pc, hok.len]) true
  obtain ⟨r1, er1, r1d, r1s, r1v⟩ := convolveNd_complete data f hf ka (by rw [prodKernel_len pa, hok.len]) true
  have qv : ∀ p, InShape data.shape p → r.val p = some (conv data.shape f kc p / boxSum (data.dims.map (twoDims d1 d2 v w)) data.shape p) := by
    intro p hp
    rw [rv p, clip_ones pc (fun x hx => (cc x hx).1)]
    simp only [if_true, V.div]
    rw [if_neg (boxSum_pos _ cc data.shape p hp (by simp [hok.len])).ne']
  have hf1 : Complete r1 (fun q => conv data.shape f ka q / boxSum (data.dims.map (oneDim d1 v)) data.shape q) := by
    intro p hp
    rw [r1s] at hp
    rw [r1v p, clip_ones pa (fun x hx => (ca x hx).1)]
    simp only [if_true, V.div]
    rw [if_neg (boxSum_pos _ ca data.shape p hp (by simp [hok.len])).ne']
  obtain ⟨r2, er2, r2d, r2s, r2v⟩ := convolveNd_complete r1 _ hf1 kb (by rw [r1s, prodKernel_len pb, hok.len]) true
  refine ⟨r, r1, r2, ?_, ?_, ?_, rd, by rw [r2d, r1d], rs, by rw [r2s, r1s], fun p hp => ⟨?_, ?_⟩⟩
  · unfold convolve; rw [ec]; exact er
  · unfold convolve; rw [ea]; exact er1
  · unfold convolve; rw [r1d, eb]; exact er2
  · rw [qv p hp]; simp
  · rw [r2v p, qv p hp, clip_ones pb (fun x hx => (cb x hx).1), r1s]
    simp only [if_true, V.div]
    rw [if_neg (boxSum_pos _ cb data.shape p hp (by simp [hok.len])).ne', mean_comp (apartDims_of data.dims d1 d2 hne v w) pa pb pc data.shape p hp f]

/-! ### plain sums with missing values -/

/-- no weight of the 1-D kernel, but the null ones, is lighter than one thousandth of their sum -/
def Heavy (v : List ℚ) : Prop := ∀ x ∈ v, x ≠ 0 → 1 / 1000 * v.sum < x

theorem boxW_map (dims : List String) (V : String → List ℚ) (P Q : String → Nat) :
    boxW (dims.map V) (dims.map P) (dims.map Q) = (dims.map (fun d => lineW (V d) (P d) (Q d))).prod := by
  induction dims with
  | nil => rfl
  | cons d ds ih => simp only [List.map_cons, boxW, List.prod_cons, ih]

theorem lineW_heavy (v : List ℚ) (hv : Heavy v) (p q : Nat) (h : lineW v p q ≠ 0) : 1 / 1000 * v.sum < lineW v p q := by
  unfold lineW at h ⊢
  split at h
  · rename_i hc
    rw [if_pos hc]
    refine hv _ ?_ h
    rw [List.getD_eq_getElem?_getD, List.getElem?_eq_getElem hc.2]
    exact List.getElem_mem hc.2
  · exact absurd rfl h

theorem kSum_prod {k : LArr ℚ} {vs : List (List ℚ)} (h : ProdKernel k vs) : kSum k = (vs.map List.sum).prod := by
  have e : kSum k = ((positions k.shape).map (prodAt vs)).sum := by
    unfold kSum
    congr 1
    exact List.map_congr_left fun j hj => h.val j ((mem_positions _ _).1 hj)
  rw [e, h.shape]
  clear e h k
  induction vs with
  | nil => simp [positions, prodAt]
  | cons v vs ih =>
    rw [List.map_cons, sum_positions_cons, List.map_cons, List.prod_cons, ← ih]
    have e2 : ∀ i : Nat, ((positions (vs.map List.length)).map (fun r => prodAt (v :: vs) (i :: r))).sum =
        v.getD i 0 * ((positions (vs.map List.length)).map (prodAt vs)).sum := by
      intro i
      rw [← sum_mul_left']
      rfl
    rw [List.map_congr_left (fun i _ => e2 i), sum_mul_right]
    congr 1
    clear e2 ih
    induction v with
    | nil => simp
    | cons x v ih =>
      rw [List.length_cons, List.range_succ_eq_map, List.map_cons, List.map_map, List.sum_cons, List.sum_cons, ← ih]
      rfl

theorem sum_nonneg' (v : List ℚ) (hv : ∀ x ∈ v, 0 ≤ x) : 0 ≤ v.sum := List.sum_nonneg hv

/-- what the two kernels of one dimension and that of two dimensions have in common: weights that are null or not lighter than one millionth of their sum -/
structure Tall (k : LArr ℚ) (n : Nat) : Prop where
  nonneg : KNonneg k
  len : k.shape.length = n
  heavy : ∀ p q, p.length = n → q.length = n → kAt k p q ≠ 0 → 1 / 1000000 * kSum k < kAt k p q

theorem tall_two {k : LArr ℚ} {dims : List String} (hn : dims.Nodup) {d1 d2 : String} (hne : d1 ≠ d2) (h1 : d1 ∈ dims) (h2 : d2 ∈ dims) {v w : List ℚ}
    (h : ProdKernel k (dims.map (twoDims d1 d2 v w))) (hv : Centred v) (hw : Centred w) (hv' : Heavy v) (hw' : Heavy w) : Tall k dims.length := by
  have cc := centred_twoDims d1 d2 v w hv hw dims
  refine ⟨fun j hj => by rw [h.val j hj]; exact prodAt_nonneg _ (fun x hx => (cc x hx).1) j, prodKernel_len h, fun p q hp hq h0 => ?_⟩
  have ek : kSum k = v.sum * w.sum := by
    rw [kSum_prod h, List.map_map, prod_two_dims dims hn d1 d2 hne h1 h2]
    · simp [twoDims, hne.symm]
    · intro d _ hd1 hd2; simp [twoDims, hd1, hd2]
  rw [h.kAt, ← map_look dims p hn hp, ← map_look dims q hn hq, boxW_map] at h0 ⊢
  have hall : ∀ d ∈ dims, lineW (twoDims d1 d2 v w d) (look dims p d) (look dims q d) ≠ 0 := by
    intro d hd hz
    exact h0 (List.prod_eq_zero (List.mem_map.2 ⟨d, hd, hz⟩))
  have e := prod_two_dims dims hn d1 d2 hne h1 h2 (fun d => lineW (twoDims d1 d2 v w d) (look dims p d) (look dims q d)) (by
    intro d hd hd1 hd2
    have := hall d hd
    have e1 : twoDims d1 d2 v w d = [1] := by simp [twoDims, hd1, hd2]
    simp only [e1, lineW_one] at this ⊢
    by_cases hpq : look dims p d = look dims q d
    · rw [if_pos hpq]
    · rw [if_neg hpq] at this; exact absurd rfl this)
  rw [e, ek]
  have e1 : twoDims d1 d2 v w d1 = v := by simp [twoDims]
  have e2 : twoDims d1 d2 v w d2 = w := by simp [twoDims, hne.symm]
  have a1 := hall d1 h1
  have a2 := hall d2 h2
  simp only [e1, e2] at a1 a2 ⊢
  have b1 := lineW_heavy v hv' _ _ a1
  have b2 := lineW_heavy w hw' _ _ a2
  have s1 := sum_nonneg' v hv.1
  have s2 := sum_nonneg' w hw.1
  have := mul_lt_mul'' b1 b2 (by linarith) (by linarith)
  calc 1 / 1000000 * (v.sum * w.sum) = 1 / 1000 * v.sum * (1 / 1000 * w.sum) := by ring
    _ < _ := this

theorem tall_one {k : LArr ℚ} {dims : List String} (hn : dims.Nodup) {d1 : String} (h1 : d1 ∈ dims) {v : List ℚ}
    (h : ProdKernel k (dims.map (oneDim d1 v))) (hv : Centred v) (hv' : Heavy v) : Tall k dims.length := by
  have cc := centred_oneDim d1 v hv dims
  refine ⟨fun j hj => by rw [h.val j hj]; exact prodAt_nonneg _ (fun x hx => (cc x hx).1) j, prodKernel_len h, fun p q hp hq h0 => ?_⟩
  have ek : kSum k = v.sum := by
    rw [kSum_prod h, List.map_map, prod_one_dim dims hn d1 h1]
    · simp [oneDim]
    · intro d _ hd1; simp [oneDim, hd1]
  rw [h.kAt, ← map_look dims p hn hp, ← map_look dims q hn hq, boxW_map] at h0 ⊢
  have hall : ∀ d ∈ dims, lineW (oneDim d1 v d) (look dims p d) (look dims q d) ≠ 0 := by
    intro d hd hz
    exact h0 (List.prod_eq_zero (List.mem_map.2 ⟨d, hd, hz⟩))
  have e := prod_one_dim dims hn d1 h1 (fun d => lineW (oneDim d1 v d) (look dims p d) (look dims q d)) (by
    intro d hd hd1
    have := hall d hd
    have e1 : oneDim d1 v d = [1] := by simp [oneDim, hd1]
    simp only [e1, lineW_one] at this ⊢
    by_cases hpq : look dims p d = look dims q d
    · rw [if_pos hpq]
    · rw [if_neg hpq] at this; exact absurd rfl this)
  rw [e, ek]
  have e1 : oneDim d1 v d1 = v := by simp [oneDim]
  have a1 := hall d1 h1
  simp only [e1] at a1 ⊢
  have b1 := lineW_heavy v hv' _ _ a1
  have s1 := sum_nonneg' v hv.1
  linarith

/-- no available datum is reached from `p` -/
def Alone (data : LArr V) (k : LArr ℚ) (p : List Nat) : Prop := ∀ q, InShape data.shape q → data.val q ≠ none → kAt k p q = 0

theorem plain_missing (data : LArr V) (k : LArr ℚ) (hk : Tall k data.shape.length) :
    ∃ r, convolveNd data k false = .ok r ∧ r.dims = data.dims ∧ r.shape = data.shape ∧ ∀ p, InShape data.shape p →
      (HasMissing data → Alone data k p → r.val p = none) ∧
      (¬ (HasMissing data ∧ Alone data k p) → r.val p = some (conv data.shape (fun q => (data.val q).getD 0) k p)) := by
  obtain ⟨r, h1, h2, h3, h4⟩ := convolveNd_spec data k hk.nonneg hk.len.symm false
  refine ⟨r, h1, h2, h3, fun p hp => ?_⟩
  have hw : Alone data k p ↔ availWeight data k p ≤ 1 / 1000000 * kSum k := by
    constructor
    · intro ha
      have : availWeight data k p = 0 := by
        unfold availWeight
        refine List.sum_eq_zero ?_
        intro x hx
        simp only [List.mem_map] at hx
        obtain ⟨q, hq, rfl⟩ := hx
        cases hd : data.val q with
        | none => rfl
        | some y => exact ha q ((mem_positions _ _).1 hq) (by simp [hd])
      rw [this]
      have := kSum_nonneg k hk.nonneg
      positivity
    · intro hle q hq hd
      by_contra h0
      have hb := hk.heavy p q (inShape_length _ _ hp) (inShape_length _ _ hq) h0
      have : kAt k p q ≤ availWeight data k p := by
        unfold availWeight
        have hm : (data.val q).elim 0 (fun _ => kAt k p q) ∈ (positions data.shape).map (fun q => (data.val q).elim 0 (fun _ => kAt k p q)) :=
          List.mem_map.2 ⟨q, (mem_positions _ _).2 hq, rfl⟩
        have e : (data.val q).elim 0 (fun _ => kAt k p q) = kAt k p q := by
          cases hd' : data.val q with
          | none => exact absurd hd' hd
          | some y => rfl
        have hle := List.single_le_sum (l := (positions data.shape).map (fun q => (data.val q).elim 0 (fun _ => kAt k p q))) (by
          intro x hx
          simp only [List.mem_map] at hx
          obtain ⟨q', _, rfl⟩ := hx
          cases data.val q' with
          | none => exact le_refl _
          | some y => exact kAt_nonneg k hk.nonneg p q') _ hm
        rw [e] at hle
        exact hle
      linarith
  refine ⟨fun a b => (h4 p).1 a (hw.1 b), fun hc => ?_⟩
  rw [(h4 p).2 (fun hh => hc ⟨hh.1, hw.2 hh.2⟩), conv_filled]
  rfl

theorem boxW_centre (vs : List (List ℚ)) (hv : ∀ v ∈ vs, Centred v) (p : List Nat) (hl : p.length = vs.length) : 0 < boxW vs p p := by
  induction vs generalizing p with
  | nil => cases p <;> simp_all [boxW]
  | cons v vs ih =>
    cases p with
    | nil => simp at hl
    | cons a p => exact mul_pos (lineW_centre v (hv v (by simp)) a) (ih (fun v h => hv v (by simp [h])) p (by simpa using hl))

/-- **C222, plain sums of data with missing values.** Filtering along two dimensions at once is filtering along the first one, then along the second one, missing values included, when the
kernels have no negative weight, a weight at their centre, and no weight lighter than one thousandth of their sum. -/
theorem C222_plain_missing_partial (data : LArr V) (hok : data.Ok) (d1 d2 : String) (hne : d1 ≠ d2) (h1 : d1 ∈ data.dims) (h2 : d2 ∈ data.dims)
    (s t : K1) (v w : List ℚ) (hs : Kernel1dOf onesWindow 0 s v) (ht : Kernel1dOf onesWindow 0 t w) (hv : Centred v) (hw : Centred w) (hv' : Heavy v) (hw' : Heavy w) :
    ∃ r r1 r2, convolve data (.dict [(d1, s), (d2, t)]) false = .ok r ∧ convolve data (.dict [(d1, s)]) false = .ok r1 ∧
      convolve r1 (.dict [(d2, t)]) false = .ok r2 ∧ r.dims = data.dims ∧ r2.dims = data.dims ∧ r.shape = data.shape ∧ r2.shape = data.shape ∧
      ∀ p, InShape data.shape p → r2.val p = r.val p := by
  by_cases hm : HasMissing data
  · obtain ⟨kc, ec, pc⟩ := kernel_two data.dims hok.nodup d1 d2 hne h1 h2 s t v w hs ht
    obtain ⟨ka, ea, pa⟩ := kernel_one data.dims hok.nodup d1 h1 s v hs
    obtain ⟨kb, eb, pb⟩ := kernel_one data.dims hok.nodup d2 h2 t w ht
    have tc := tall_two hok.nodup hne h1 h2 pc hv hw hv' hw'
    have ta := tall_one hok.nodup h1 pa hv hv'
    have tb := tall_one hok.nodup h2 pb hw hw'
    have hap := apartDims_of data.dims d1 d2 hne v w
    obtain ⟨r, er, rd, rs, rv⟩ := plain_missing data kc (by rw [hok.len]; exact tc)
    obtain ⟨r1, er1, r1d, r1s, r1v⟩ := plain_missing data ka (by rw [hok.len]; exact ta)
    obtain ⟨r2, er2, r2d, r2s, r2v⟩ := plain_missing r1 kb (by rw [r1s, hok.len]; exact tb)
    refine ⟨r, r1, r2, ?_, ?_, ?_, rd, by rw [r2d, r1d], rs, by rw [r2s, r1s], fun p hp => ?_⟩
    · unfold convolve; rw [ec]; exact er
    · unfold convolve; rw [ea]; exact er1
    · unfold convolve; rw [r1d, eb]; exact er2
    · have fill1 : ∀ q, InShape data.shape q → (r1.val q).getD 0 = conv data.shape (fun q => (data.val q).getD 0) ka q := by
        intro q hq
        by_cases ha : Alone data ka q
        · rw [(r1v q hq).1 hm ha]
          unfold conv
          symm
          refine List.sum_eq_zero ?_
          intro x hx
          simp only [List.mem_map] at hx
          obtain ⟨q', hq', rfl⟩ := hx
          by_cases hd : data.val q' = none
          · rw [hd]; simp
          · rw [ha q' ((mem_positions _ _).1 hq') hd, zero_mul]
        · rw [(r1v q hq).2 (fun h => ha h.2)]; rfl
      have none1 : ∀ q, InShape data.shape q → (r1.val q = none ↔ Alone data ka q) := by
        intro q hq
        constructor
        · intro hz
          by_contra ha
          rw [(r1v q hq).2 (fun h => ha h.2)] at hz
          cases hz
        · exact (r1v q hq).1 hm
      have comp : ∀ q, InShape data.shape q → kAt kc p q = ((positions data.shape).map (fun r => kAt kb p r * kAt ka r q)).sum := by
        intro q hq
        rw [pc.kAt, ← boxW_comp hap data.shape p q hp hq]
        congr 1
        exact List.map_congr_left fun r _ => by rw [pa.kAt, pb.kAt]
      have key : (HasMissing r1 ∧ Alone r1 kb p) ↔ Alone data kc p := by
        constructor
        · rintro ⟨_, hb⟩ q hq hd
          rw [comp q hq]
          refine List.sum_eq_zero ?_
          intro x hx
          simp only [List.mem_map] at hx
          obtain ⟨q', hq', rfl⟩ := hx
          have hq'' := (mem_positions _ _).1 hq'
          by_cases hz : r1.val q' = none
          · rw [(none1 q' hq'').1 hz q hq hd, mul_zero]
          · rw [hb q' (by rw [r1s]; exact hq'') hz, zero_mul]
        · intro hc
          have hz : ∀ q', InShape data.shape q' → kAt kb p q' ≠ 0 → r1.val q' = none := by
            intro q' hq' h0
            rw [none1 q' hq']
            intro q hq hd
            by_contra hk0
            have hs0 := hc q hq hd
            rw [comp q hq] at hs0
            have hpos := sum_pos_of_mem (positions data.shape) (fun r => kAt kb p r * kAt ka r q)
              (fun x _ => mul_nonneg (kAt_nonneg kb tb.nonneg p x) (kAt_nonneg ka ta.nonneg x q)) q' ((mem_positions _ _).2 hq')
              (mul_pos (lt_of_le_of_ne (kAt_nonneg kb tb.nonneg p q') (Ne.symm h0)) (lt_of_le_of_ne (kAt_nonneg ka ta.nonneg q' q) (Ne.symm hk0)))
            linarith
          refine ⟨⟨p, by rw [r1s]; exact hp, hz p hp ?_⟩, fun q' hq' hne' => ?_⟩
          · rw [pb.kAt]
            exact (boxW_centre _ (centred_oneDim d2 w hw data.dims) p (by rw [inShape_length _ _ hp, List.length_map, hok.len])).ne'
          · by_contra h0
            exact hne' (hz q' (by rw [r1s] at hq'; exact hq') h0)
      by_cases hc : Alone data kc p
      · have hb := key.2 hc
        rw [(rv p hp).1 hm hc, (r2v p (by rw [r1s]; exact hp)).1 hb.1 hb.2]
      · rw [(rv p hp).2 (fun h => hc h.2), (r2v p (by rw [r1s]; exact hp)).2 (fun h => hc (key.1 h)), r1s]
        rw [conv_congr data.shape kb _ _ fill1, conv_comp hap pa pb pc data.shape p hp]
  · obtain ⟨r, r1, r2, e1, e2, e3, e4, e5, e6, e7, e8⟩ := C222_plain data hok (fun q => (data.val q).getD 0) (fun q hq => by
      cases hd : data.val q with
      | none => exact absurd ⟨q, hq, hd⟩ hm
      | some y => simp [hd]) d1 d2 hne h1 h2 s t ⟨v, hs⟩ ⟨w, ht⟩
    exact ⟨r, r1, r2, e1, e2, e3, e4, e5, e6, e7, fun p hp => (e8 p hp).2⟩

/-- **C222, order.** Complete data filtered along a dimension and then along another one are the same in the other order, plain sums or means. -/
theorem C222_order (data : LArr V) (hok : data.Ok) (f : List Nat → ℚ) (hf : Complete data f) (d1 d2 : String) (hne : d1 ≠ d2) (h1 : d1 ∈ data.dims) (h2 : d2 ∈ data.dims)
    (s t : K1) (v w : List ℚ) (hs : Kernel1dOf onesWindow 0 s v) (ht : Kernel1dOf onesWindow 0 t w) (normalize : Bool)
    (hn : normalize = true → Centred v ∧ Centred w) :
    ∃ a1 a2 b1 b2, convolve data (.dict [(d1, s)]) normalize = .ok a1 ∧ convolve a1 (.dict [(d2, t)]) normalize = .ok a2 ∧
      convolve data (.dict [(d2, t)]) normalize = .ok b1 ∧ convolve b1 (.dict [(d1, s)]) normalize = .ok b2 ∧
      a2.dims = b2.dims ∧ a2.shape = b2.shape ∧ ∀ p, InShape data.shape p → a2.val p = b2.val p := by
  have hsame : ∀ k k' : LArr ℚ, ∀ vs, ProdKernel k vs → ProdKernel k' vs → kSum k = kSum k' ∧ ∀ g : List Nat → ℚ, ∀ p, conv data.shape g k p = conv data.shape g k' p := by
    intro k k' vs e e'
    refine ⟨by rw [kSum_prod e, kSum_prod e'], fun g p => ?_⟩
    unfold conv
    congr 1
    exact List.map_congr_left fun q _ => by rw [e.kAt, e'.kAt]
  have hsw : twoDims d2 d1 w v = twoDims d1 d2 v w := by
    funext d
    unfold twoDims
    by_cases e1 : d = d1
    · subst e1; simp [hne]
    · simp [e1]
  obtain ⟨kc, ec, pc⟩ := kernel_two data.dims hok.nodup d1 d2 hne h1 h2 s t v w hs ht
  obtain ⟨kd, ed, pd⟩ := kernel_two data.dims hok.nodup d2 d1 hne.symm h2 h1 t s w v ht hs
  rw [hsw] at pd
  have hcd := hsame kc kd _ pc pd
  have hl : ∀ {k : LArr ℚ}, ProdKernel k (data.dims.map (twoDims d1 d2 v w)) → data.shape.length = k.shape.length := fun h => by rw [prodKernel_len h, hok.len]
  obtain ⟨rc, rc1, rcd, rcs, rcv⟩ := convolveNd_complete data f hf kc (hl pc) normalize
  obtain ⟨rd, rd1, rdd, rds, rdv⟩ := convolveNd_complete data f hf kd (hl pd) normalize
  have hv : ∀ p, rc.val p = rd.val p := by
    intro p
    rw [rcv, rdv, hcd.1, hcd.2 f p, hcd.2 (fun _ => 1) p]
  cases normalize with
  | false =>
    obtain ⟨r, r1, r2, e1, e2, e3, e4, e5, e6, e7, e8⟩ := C222_plain data hok f hf d1 d2 hne h1 h2 s t ⟨v, hs⟩ ⟨w, ht⟩
    obtain ⟨r', r1', r2', e1', e2', e3', e4', e5', e6', e7', e8'⟩ := C222_plain data hok f hf d2 d1 hne.symm h2 h1 t s ⟨w, ht⟩ ⟨v, hs⟩
    have x1 : r = rc := by
      unfold convolve at e1; rw [ec] at e1
      exact Except.ok.inj (e1.symm.trans rc1)
    have x2 : r' = rd := by
      unfold convolve at e1'; rw [ed] at e1'
      exact Except.ok.inj (e1'.symm.trans rd1)
    exact ⟨r1, r2, r1', r2', e2, e3, e2', e3', by rw [e5, e5'], by rw [e7, e7'], fun p hp => by rw [(e8 p hp).2, (e8' p hp).2, x1, x2, hv]⟩
  | true =>
    obtain ⟨hcv, hcw⟩ := hn rfl
    obtain ⟨r, r1, r2, e1, e2, e3, e4, e5, e6, e7, e8⟩ := C222_mean data hok f hf d1 d2 hne h1 h2 s t v w hs ht hcv hcw
    obtain ⟨r', r1', r2', e1', e2', e3', e4', e5', e6', e7', e8'⟩ := C222_mean data hok f hf d2 d1 hne.symm h2 h1 t s w v ht hs hcw hcv
    have x1 : r = rc := by
      unfold convolve at e1; rw [ec] at e1
      exact Except.ok.inj (e1.symm.trans rc1)
    have x2 : r' = rd := by
      unfold convolve at e1'; rw [ed] at e1'
      exact Except.ok.inj (e1'.symm.trans rd1)
    exact ⟨r1, r2, r1', r2', e2, e3, e2', e3', by rw [e5, e5'], by rw [e7, e7'], fun p hp => by rw [(e8 p hp).2, (e8' p hp).2, x1, x2, hv]⟩

-- the hypotheses are met by a window of 3 points and by the list [1, 2] of weights
example : Kernel1dOf onesWindow 0 (.int 3) [1, 1, 1] ∧ Kernel1dOf onesWindow 0 (.arr [1, 2]) [1, 2] ∧ Centred [1, 1, 1] ∧ Centred [1, 2] ∧ Heavy [1, 1, 1] ∧ Heavy [1, 2] :=
  ⟨.int 3, .list _, ⟨by decide, by decide⟩, ⟨by decide, by decide⟩, by unfold Heavy; decide +kernel, by unfold Heavy; decide +kernel⟩

/-- data (y, x) of shape (2, 2) -/
def sepData (a b c d : V) : LArr V := ⟨["y", "x"], [2, 2], fun idx => [a, b, c, d].getD (2 * idx.getD 0 0 + idx.getD 1 0) none⟩

example : fVals (convolve (sepData (some 1) (some 2) (some 3) (some 6)) (.dict [("y", .int 3), ("x", .arr [0, 1, 2])]) true) =
      some [some 2, some (8/3), some 2, some (8/3)] ∧
    fVals ((convolve (sepData (some 1) (some 2) (some 3) (some 6)) (.dict [("y", .int 3)]) true).bind fun r => convolve r (.dict [("x", .arr [0, 1, 2])]) true) =
      some [some 2, some (8/3), some 2, some (8/3)] := by
  decide +kernel

/-- C222 is false of means of data with missing values: the mean of the means gives the same weight to a row with one datum and to a row with two. -/
theorem C222_missing_violated :
    fVals (convolve (sepData (some 0) none (some 3) (some 3)) (.dict [("y", .int 3), ("x", .int 3)]) true) = some [some 2, some 2, some 2, some 2] ∧
    fVals ((convolve (sepData (some 0) none (some 3) (some 3)) (.dict [("y", .int 3)]) true).bind fun r => convolve r (.dict [("x", .int 3)]) true) =
      some [some (9/4), some (9/4), some (9/4), some (9/4)] := by
  decide +kernel

/-- C222 is false of plain sums of data with missing values when some weights are light: with the weights 1, 100000, 1 along each dimension, the diagonal neighbour of the
only datum is missing at once, and has the value of the datum in two steps. -/
theorem C222_light_violated :
    Centred [1, 100000, 1] ∧
    fVals (convolve (sepData (some 5) none none none) (.dict [("y", .arr [1, 100000, 1]), ("x", .arr [1, 100000, 1])]) false) =
      some [some 50000000000, some 500000, some 500000, none] ∧
    fVals ((convolve (sepData (some 5) none none none) (.dict [("y", .arr [1, 100000, 1])]) false).bind fun r => convolve r (.dict [("x", .arr [1, 100000, 1])]) false) =
      some [some 50000000000, some 500000, some 500000, some 5] :=
  ⟨⟨by decide, by decide +kernel⟩, by decide +kernel, by decide +kernel⟩

end Xoa
