import Verif.ErodeTurnProps
import Verif.FilterUnitsProps
import Verif.ErodeUntilProps

/-!
# C188: filters, order of the dimensions and direction of the axes

The same data may be stored with their dimensions in another order, or with some axes reversed (e.g. latitudes from north to
south). Positions are given by name.
-/

namespace Xoa

/-- the position `P`, counted from the other end along the dimensions of `F` -/
def flipPos (F : String → Bool) (size P : String → Nat) : String → Nat := fun d => if F d then size d - 1 - P d else P d

/-- `b` holds the same values as `a`, with its dimensions in any order, and reversed along the dimensions of `F` -/
structure Turned {α : Type} (F : String → Bool) (a b : LArr α) : Prop where
  aok : a.Ok
  bok : b.Ok
  dims : ∀ d, d ∈ b.dims ↔ d ∈ a.dims
  sizes : ∀ d ∈ a.dims, b.size d = a.size d
  vals : ∀ P : String → Nat, (∀ d ∈ a.dims, P d < a.size d) → b.at (flipPos F a.size P) = a.at P

/-- position in `b` of the value that is at `idx` in `a` -/
def turnIdx {α : Type} (F : String → Bool) (a b : LArr α) (idx : List Nat) : List Nat := b.dims.map (flipPos F a.size (look a.dims idx))

theorem inShape_named {α : Type} {a : LArr α} (ha : a.Ok) {idx : List Nat} (h : InShape a.shape idx) :
    (∀ d ∈ a.dims, look a.dims idx d < a.size d) ∧ a.dims.map (look a.dims idx) = idx := by
  have hl : idx.length = a.dims.length := by rw [inShape_length _ _ h, ha.len]
  refine ⟨fun d hd => ?_, map_look _ _ ha.nodup hl⟩
  rw [shape_eq a ha] at h
  exact look_lt a.dims a.size idx h d hd

theorem named_inShape {α : Type} {a : LArr α} (ha : a.Ok) {P : String → Nat} (h : ∀ d ∈ a.dims, P d < a.size d) : InShape a.shape (a.dims.map P) := by
  rw [shape_eq a ha]; exact inShape_map _ _ _ h

theorem flipPos_lt {F : String → Bool} {size P : String → Nat} {d : String} (h : P d < size d) : flipPos F size P d < size d := by
  unfold flipPos; split <;> omega

theorem flipPos_flip {F : String → Bool} {size P : String → Nat} {d : String} (h : P d < size d) : flipPos F size (flipPos F size P) d = P d := by
  unfold flipPos; split <;> omega

theorem flipPos_congr {F : String → Bool} {s s' P P' : String → Nat} {d : String} (h : s d = s' d) (h' : P d = P' d) : flipPos F s P d = flipPos F s' P' d := by
  unfold flipPos; rw [h, h']

theorem Turned.pos {α : Type} {F : String → Bool} {a b : LArr α} (h : Turned F a b) {P : String → Nat} (hP : ∀ d ∈ a.dims, P d < a.size d) :
    turnIdx F a b (a.dims.map P) = b.dims.map (flipPos F a.size P) := by
  unfold turnIdx
  refine List.map_congr_left fun d hd => flipPos_congr rfl (look_map _ _ _ ((h.dims d).1 hd))

theorem Turned.inB {α : Type} {F : String → Bool} {a b : LArr α} (h : Turned F a b) {P : String → Nat} (hP : ∀ d ∈ a.dims, P d < a.size d) :
    ∀ d ∈ b.dims, flipPos F a.size P d < b.size d := by
  intro d hd
  rw [h.sizes d ((h.dims d).1 hd)]
  exact flipPos_lt (hP d ((h.dims d).1 hd))

theorem Turned.val {α : Type} {F : String → Bool} {a b : LArr α} (h : Turned F a b) {idx : List Nat} (hi : InShape a.shape idx) : b.val (turnIdx F a b idx) = a.val idx := by
  obtain ⟨h1, h2⟩ := inShape_named h.aok hi
  have := h.vals _ h1
  unfold LArr.at at this
  rw [h2] at this
  exact this

/-- the positions of `b` are those of `a`, turned -/
theorem Turned.perm {α : Type} {F : String → Bool} {a b : LArr α} (h : Turned F a b) : ((positions a.shape).map (turnIdx F a b)).Perm (positions b.shape) := by
  have hinj : ∀ i ∈ positions a.shape, ∀ j ∈ positions a.shape, turnIdx F a b i = turnIdx F a b j → i = j := by
    intro i hi j hj e
    obtain ⟨i1, i2⟩ := inShape_named h.aok ((mem_positions _ _).1 hi)
    obtain ⟨j1, j2⟩ := inShape_named h.aok ((mem_positions _ _).1 hj)
    rw [← i2, ← j2]
    refine List.map_congr_left fun d hd => ?_
    have := map_inj_pos _ _ _ e d ((h.dims d).2 hd)
    rw [← flipPos_flip (F := F) (i1 d hd), ← flipPos_flip (F := F) (j1 d hd)]
    exact flipPos_congr rfl this
  rw [List.perm_ext_iff_of_nodup (List.Nodup.map_on hinj (positions_nodup _)) (positions_nodup _)]
  intro x
  simp only [List.mem_map, mem_positions]
  constructor
  · rintro ⟨i, hi, rfl⟩
    obtain ⟨i1, i2⟩ := inShape_named h.aok hi
    exact named_inShape h.bok (h.inB i1)
  · intro hx
    obtain ⟨x1, x2⟩ := inShape_named h.bok hx
    have hb : ∀ d ∈ a.dims, look b.dims x d < a.size d := fun d hd => by rw [← h.sizes d hd]; exact x1 d ((h.dims d).2 hd)
    have hP : ∀ d ∈ a.dims, flipPos F a.size (look b.dims x) d < a.size d := fun d hd => flipPos_lt (hb d hd)
    refine ⟨a.dims.map (flipPos F a.size (look b.dims x)), named_inShape h.aok hP, ?_⟩
    rw [h.pos hP]
    conv_rhs => rw [← x2]
    exact List.map_congr_left fun d hd => flipPos_flip (hb d ((h.dims d).1 hd))

/-- a sum on all the positions -/
theorem Turned.sum {α : Type} {F : String → Bool} {a b : LArr α} (h : Turned F a b) (f g : List Nat → ℚ) (hfg : ∀ i, InShape a.shape i → g (turnIdx F a b i) = f i) :
    ((positions b.shape).map g).sum = ((positions a.shape).map f).sum := by
  rw [← (h.perm.map g).sum_eq, List.map_map]
  congr 1
  exact List.map_congr_left fun i hi => hfg i ((mem_positions _ _).1 hi)

theorem Turned.any {α : Type} {F : String → Bool} {a b : LArr α} (h : Turned F a b) (f g : List Nat → Bool) (hfg : ∀ i, InShape a.shape i → g (turnIdx F a b i) = f i) :
    (positions b.shape).any g = (positions a.shape).any f := by
  rw [← h.perm.any_eq, List.any_map, Bool.eq_iff_iff, List.any_eq_true, List.any_eq_true]
  constructor
  · rintro ⟨x, hx, hy⟩; exact ⟨x, hx, by rw [← hfg x ((mem_positions _ _).1 hx)]; exact hy⟩
  · rintro ⟨x, hx, hy⟩; exact ⟨x, hx, by show g _ = true; rw [hfg x ((mem_positions _ _).1 hx)]; exact hy⟩

/-- the weight, by name -/
theorem kAt_named (k : LArr ℚ) (hk : k.Ok) (P Q : String → Nat) :
    kAt k (k.dims.map P) (k.dims.map Q) =
      if ∀ d ∈ k.dims, Q d ≤ P d + (k.size d - 1) / 2 ∧ P d + (k.size d - 1) / 2 - Q d < k.size d then k.at (fun d => P d + (k.size d - 1) / 2 - Q d) else 0 := by
  unfold kAt
  split
  case isTrue h => rw [shape_eq k hk, kIdx_map _ _ _ _ h]; rfl
  case isFalse h =>
    push Not at h
    obtain ⟨d, hd, h⟩ := h
    rw [shape_eq k hk, kIdx_map_none k.dims k.size P Q d hd (fun hc => absurd hc.2 (by have := h hc.1; omega))]
    rfl

/-- the weights of a turned kernel whose sizes are odd along the reversed dimensions -/
theorem Turned.kAt {F : String → Bool} {data data' : LArr V} {k k' : LArr ℚ} (h : Turned F data data') (hk : Turned F k k') (e : k.dims = data.dims)
    (e' : k'.dims = data'.dims) (hodd : ∀ d ∈ k.dims, F d = true → k.size d % 2 = 1) {p q : List Nat} (hp : InShape data.shape p) (hq : InShape data.shape q) :
    kAt k' (turnIdx F data data' p) (turnIdx F data data' q) = kAt k p q := by
  obtain ⟨p1, p2⟩ := inShape_named h.aok hp
  obtain ⟨q1, q2⟩ := inShape_named h.aok hq
  generalize hP : look data.dims p = P at p1 p2
  generalize hQ : look data.dims q = Q at q1 q2
  unfold turnIdx
  rw [hP, hQ, ← p2, ← q2, ← e, ← e', kAt_named k hk.aok, kAt_named k' hk.bok]
  have hone : ∀ d ∈ k.dims, (flipPos F data.size Q d ≤ flipPos F data.size P d + (k'.size d - 1) / 2 ∧
      flipPos F data.size P d + (k'.size d - 1) / 2 - flipPos F data.size Q d < k'.size d ↔
      Q d ≤ P d + (k.size d - 1) / 2 ∧ P d + (k.size d - 1) / 2 - Q d < k.size d) := by
    intro d hd
    rw [hk.sizes d hd]
    have a1 := p1 d (by rw [← e]; exact hd)
    have a2 := q1 d (by rw [← e]; exact hd)
    have a3 := hodd d hd
    unfold flipPos
    cases hF : F d with
    | false => simp only [Bool.false_eq_true, if_false]
    | true => simp only [if_true]; have := a3 hF; omega
  have hall : (∀ d ∈ k'.dims, flipPos F data.size Q d ≤ flipPos F data.size P d + (k'.size d - 1) / 2 ∧
      flipPos F data.size P d + (k'.size d - 1) / 2 - flipPos F data.size Q d < k'.size d) ↔
      ∀ d ∈ k.dims, Q d ≤ P d + (k.size d - 1) / 2 ∧ P d + (k.size d - 1) / 2 - Q d < k.size d :=
    ⟨fun H d hd => (hone d hd).1 (H d ((hk.dims d).2 hd)), fun H d hd => (hone d ((hk.dims d).1 hd)).2 (H d ((hk.dims d).1 hd))⟩
  by_cases hc : ∀ d ∈ k.dims, Q d ≤ P d + (k.size d - 1) / 2 ∧ P d + (k.size d - 1) / 2 - Q d < k.size d
  · rw [if_pos hc, if_pos (hall.2 hc), ← hk.vals _ (fun d hd => (hc d hd).2)]
    unfold LArr.at
    congr 1
    refine List.map_congr_left fun d hd => ?_
    have hd' := (hk.dims d).1 hd
    rw [hk.sizes d hd']
    have a1 := p1 d (by rw [← e]; exact hd')
    have a2 := q1 d (by rw [← e]; exact hd')
    have a3 := hodd d hd'
    have a4 := hc d hd'
    unfold flipPos
    cases hF : F d with
    | false => simp only [Bool.false_eq_true, if_false]
    | true => simp only [if_true]; have := a3 hF; omega
  · rw [if_neg hc, if_neg (fun H => hc (hall.1 H))]

theorem Turned.kSum {F : String → Bool} {k k' : LArr ℚ} (h : Turned F k k') : kSum k' = kSum k := by
  unfold Xoa.kSum
  exact h.sum _ _ fun i hi => h.val hi

theorem Turned.with {α β : Type} {F : String → Bool} {a b : LArr α} (h : Turned F a b) (f g : List Nat → β) (hfg : ∀ i, InShape a.shape i → g (turnIdx F a b i) = f i) :
    Turned F (⟨a.dims, a.shape, f⟩ : LArr β) ⟨b.dims, b.shape, g⟩ := by
  refine ⟨⟨h.aok.nodup, h.aok.len⟩, ⟨h.bok.nodup, h.bok.len⟩, h.dims, h.sizes, ?_⟩
  intro P hP
  have := hfg (a.dims.map P) (named_inShape h.aok hP)
  rw [h.pos hP] at this
  exact this

/-- `_convolve_` -/
theorem Turned.conv {F : String → Bool} {data data' : LArr V} {k k' : LArr ℚ} (h : Turned F data data') (hk : Turned F k k') (e : k.dims = data.dims)
    (e' : k'.dims = data'.dims) (hodd : ∀ d ∈ k.dims, F d = true → k.size d % 2 = 1) (normalize : Bool) :
    ∃ r r', convolveNd data k normalize = .ok r ∧ convolveNd data' k' normalize = .ok r' ∧ Turned F r r' := by
  have hl : data.shape.length = k.shape.length := by rw [h.aok.len, hk.aok.len, e]
  have hl' : data'.shape.length = k'.shape.length := by rw [h.bok.len, hk.bok.len, e']
  refine ⟨_, _, convolveNd_all data k hl normalize, convolveNd_all data' k' hl' normalize, h.with _ _ ?_⟩
  intro i hi
  have w1 : availWeight data' k' (turnIdx F data data' i) = availWeight data k i := by
    unfold availWeight
    refine h.sum _ _ fun q hq => ?_
    rw [h.val hq, h.kAt hk e e' hodd hi hq]
  have w2 : availSum data' k' (turnIdx F data data' i) = availSum data k i := by
    unfold availSum
    refine h.sum _ _ fun q hq => ?_
    rw [h.val hq, h.kAt hk e e' hodd hi hq]
  have w3 : ((positions data'.shape).any fun q => (data'.val q).isNone) = (positions data.shape).any fun q => (data.val q).isNone :=
    h.any _ _ fun q hq => by rw [h.val hq]
  rw [w1, w2, w3, hk.kSum]

/-- the kernel completed for the data -/
theorem Turned.kernel {F : String → Bool} {data data' : LArr V} {k k' : LArr ℚ} (h : Turned F data data') (hk : Turned F k k') (hsub : ∀ d ∈ k.dims, d ∈ data.dims)
    (hodd : ∀ d ∈ k.dims, F d = true → k.size d % 2 = 1) :
    ∃ K K', generateKernel onesWindow 0 (.da k) data.dims = .ok K ∧ generateKernel onesWindow 0 (.da k') data'.dims = .ok K' ∧ Turned F K K' ∧
      K.dims = data.dims ∧ K'.dims = data'.dims ∧ (∀ d ∈ K.dims, F d = true → K.size d % 2 = 1) ∧
      Transposed k K data.dims (newSize .insert (fun _ => none)) := by
  have hsub' : ∀ d ∈ k'.dims, d ∈ data'.dims := fun d hd => (h.dims d).2 (hsub d ((hk.dims d).1 hd))
  obtain ⟨K, h1, t1⟩ := generateKernel_da onesWindow 0 k hk.aok data.dims h.aok.nodup hsub
  obtain ⟨K', h2, t2⟩ := generateKernel_da onesWindow 0 k' hk.bok data'.dims h.bok.nodup hsub'
  have hnew : ∀ d ∈ data.dims, d ∉ k.dims → K.size d = 1 := fun d hd hn => by rw [t1.new d hd hn]; simp [newSize]
  have hnew' : ∀ d ∈ data'.dims, d ∉ k'.dims → K'.size d = 1 := fun d hd hn => by rw [t2.new d hd hn]; simp [newSize]
  have hsize : ∀ d ∈ data.dims, K'.size d = K.size d := by
    intro d hd
    by_cases hkd : d ∈ k.dims
    · rw [(t2.sizes d ((hk.dims d).2 hkd)).2, (t1.sizes d hkd).2, hk.sizes d hkd]
    · rw [hnew d hd hkd, hnew' d ((h.dims d).2 hd) (fun hc => hkd ((hk.dims d).1 hc))]
  refine ⟨K, K', h1, h2, ⟨t1.ok, t2.ok, ?_, ?_, ?_⟩, t1.dims, t2.dims, ?_, t1⟩
  · intro d; rw [t1.dims, t2.dims]; exact h.dims d
  · intro d hd; rw [t1.dims] at hd; exact hsize d hd
  · intro P hP
    rw [t1.vals, t2.vals]
    have hP' : ∀ d ∈ k.dims, P d < k.size d := fun d hd => by
      rw [← (t1.sizes d hd).2]; exact hP d (by rw [t1.dims]; exact hsub d hd)
    rw [← hk.vals P hP']
    unfold LArr.at
    congr 1
    refine List.map_congr_left fun d hd => flipPos_congr (t1.sizes d ((hk.dims d).1 hd)).2 rfl
  · intro d hd hF
    rw [t1.dims] at hd
    by_cases hkd : d ∈ k.dims
    · rw [(t1.sizes d hkd).2]; exact hodd d hkd hF
    · rw [hnew d hd hkd]

/-- **C188 (`convolve`).** Data stored with their dimensions in another order, and reversed along any of them, filtered with the kernel turned in the same way, give the filtered data in this
order and reversed along the same dimensions, normalised or not, missing values included. The kernel may have its own order of dimensions, and fewer of them;
its size must be odd along the reversed dimensions (see `even_kernel_reversed`). -/
theorem C188_convolve (F : String → Bool) (data data' : LArr V) (k k' : LArr ℚ) (h : Turned F data data') (hk : Turned F k k')
    (hsub : ∀ d ∈ k.dims, d ∈ data.dims) (hodd : ∀ d ∈ k.dims, F d = true → k.size d % 2 = 1) (normalize : Bool) :
    ∃ r r', convolve data (.da k) normalize = .ok r ∧ convolve data' (.da k') normalize = .ok r' ∧ Turned F r r' := by
  obtain ⟨K, K', h1, h2, h3, h4, h5, h6, _⟩ := h.kernel hk hsub hodd
  obtain ⟨r, r', a1, a2, a3⟩ := h.conv h3 h4 h5 h6 normalize
  refine ⟨r, r', ?_, ?_, a3⟩
  · unfold convolve; rw [h1]; exact a1
  · unfold convolve; rw [h2]; exact a2

/-! ## `erode_mask` -/

theorem Turned.fill {F : String → Bool} {data data' : LArr V} {k k' : LArr ℚ} (h : Turned F data data') (hk : Turned F k k') (e : k.dims = data.dims)
    (e' : k'.dims = data'.dims) (hodd : ∀ d ∈ k.dims, F d = true → k.size d % 2 = 1) :
    ∃ r r', convolveFill data k = .ok r ∧ convolveFill data' k' = .ok r' ∧ r.dims = data.dims ∧ r'.dims = data'.dims ∧ Turned F r r' := by
  obtain ⟨c, c', h1, h2, h3⟩ := h.conv hk e e' hodd true
  have d1 : c.dims = data.dims ∧ c.shape = data.shape := by
    rw [convolveNd_all data k (by rw [h.aok.len, hk.aok.len, e])] at h1; cases h1; exact ⟨rfl, rfl⟩
  have d2 : c'.dims = data'.dims ∧ c'.shape = data'.shape := by
    rw [convolveNd_all data' k' (by rw [h.bok.len, hk.bok.len, e'])] at h2; cases h2; exact ⟨rfl, rfl⟩
  refine ⟨⟨data.dims, data.shape, fun p => (data.val p).orElse (fun _ => c.val p)⟩, ⟨data'.dims, data'.shape, fun p => (data'.val p).orElse (fun _ => c'.val p)⟩, ?_, ?_, rfl, rfl, h.with _ _ ?_⟩
  · unfold convolveFill
    rw [convolve_da data k ⟨h.aok, hk.aok, e⟩, h1]; rfl
  · unfold convolveFill
    rw [convolve_da data' k' ⟨h.bok, hk.bok, e'⟩, h2]; rfl
  · intro i hi
    have := h3.val (idx := i) (by rw [d1.2]; exact hi)
    have et : turnIdx F c c' i = turnIdx F data data' i := by
      unfold turnIdx LArr.size; rw [d2.1, d1.1, d1.2]
    rw [et] at this
    rw [h.val hi, this]

theorem Turned.iter {F : String → Bool} {k k' : LArr ℚ} (hk : Turned F k k') (hodd : ∀ d ∈ k.dims, F d = true → k.size d % 2 = 1) (n : Nat) :
    ∀ {data data' : LArr V}, Turned F data data' → k.dims = data.dims → k'.dims = data'.dims →
      ∃ r r', erodeIter k n data = .ok r ∧ erodeIter k' n data' = .ok r' ∧ r.dims = data.dims ∧ r'.dims = data'.dims ∧ Turned F r r' := by
  induction n with
  | zero => intro data data' h _ _; exact ⟨data, data', rfl, rfl, rfl, rfl, h⟩
  | succ n ih =>
    intro data data' h e e'
    obtain ⟨c, c', h1, h2, h3, h4, h5⟩ := h.fill hk e e' hodd
    obtain ⟨r, r', a1, a2, a3, a4, a5⟩ := ih h5 (by rw [e, h3]) (by rw [e', h4])
    exact ⟨r, r', by rw [erodeIter_succ k n data c h1]; exact a1, by rw [erodeIter_succ k' n data' c' h2]; exact a2, a3.trans h3, a4.trans h4, a5⟩

theorem Turned.kDims {F : String → Bool} {k k' : LArr ℚ} (hk : Turned F k k') : ∀ d, d ∈ kDims k' ↔ d ∈ kDims k := by
  intro d
  unfold Xoa.kDims
  simp only [List.mem_filter, decide_eq_true_eq, hk.dims d]
  constructor
  · rintro ⟨a, b⟩; exact ⟨a, by rw [← hk.sizes d a]; exact b⟩
  · rintro ⟨a, b⟩; exact ⟨a, by rw [hk.sizes d a]; exact b⟩

/-- the kernel of the erosion of the turned data -/
theorem Turned.erodeKernel {F : String → Bool} {data data' : LArr V} {k k' K : LArr ℚ} (h : Turned F data data') (hk : Turned F k k')
    (hK : ErodeKernel data (.da k) K) (hodd : ∀ d ∈ k.dims, F d = true → k.size d % 2 = 1) :
    ∃ K', ErodeKernel data' (.da k') K' ∧ Turned F K K' ∧ (∀ d ∈ K.dims, F d = true → K.size d % 2 = 1) := by
  have hmade := hK.made
  unfold Xoa.erodeKernel at hmade
  have h2 : ¬ data.dims.length < 2 := by
    intro hc; rw [if_pos hc] at hmade; cases hmade
  rw [if_neg h2] at hmade
  have hsub : ∀ d ∈ k.dims, d ∈ data.dims := by
    intro d hd
    by_contra hc
    rw [C27_named_kernel_refused onesWindow 0 k data.dims d hd hc] at hmade
    cases hmade
  obtain ⟨K0, K', g1, g2, g3, g4, g5, g6, _⟩ := h.kernel hk hsub hodd
  rw [g1] at hmade
  have hl : ¬ 2 < (Xoa.kDims K0).length ∧ K0 = K := by
    by_cases hc : 2 < (Xoa.kDims K0).length
    · simp only [bind, Except.bind, hc, if_true] at hmade; cases hmade
    · simp only [bind, Except.bind, hc, if_false] at hmade; cases hmade; exact ⟨hc, rfl⟩
  obtain ⟨hl, rfl⟩ := hl
  refine ⟨K', ⟨?_, ⟨h.bok, g3.bok, g5⟩⟩, g3, g6⟩
  have p1 : data'.dims.length = data.dims.length :=
    ((List.perm_ext_iff_of_nodup h.bok.nodup h.aok.nodup).2 h.dims).length_eq
  have p2 : (Xoa.kDims K').length = (Xoa.kDims K0).length :=
    ((List.perm_ext_iff_of_nodup (g3.bok.nodup.filter _) (g3.aok.nodup.filter _)).2 g3.kDims).length_eq
  unfold Xoa.erodeKernel
  rw [if_neg (by omega), g2]
  simp only [bind, Except.bind, p2, hl, if_false]

theorem erodeN_iter {data : LArr V} {spec : KSpec} {k : LArr ℚ} (hk : ErodeKernel data spec k) (n : Int) : erodeMaskN data n spec = erodeIter k n.toNat data := by
  unfold erodeMaskN; rw [hk.made]; rfl

/-- **C188 (`erode_mask`).** The mask of turned data, eroded any number of turns with the kernel turned in the same way, gives the eroded data turned in the same way. -/
theorem C188_erode (F : String → Bool) (data data' : LArr V) (k k' K : LArr ℚ) (h : Turned F data data') (hk : Turned F k k')
    (hK : ErodeKernel data (.da k) K) (hodd : ∀ d ∈ k.dims, F d = true → k.size d % 2 = 1) (n : Int) :
    ∃ r r', erodeMaskN data n (.da k) = .ok r ∧ erodeMaskN data' n (.da k') = .ok r' ∧ Turned F r r' := by
  obtain ⟨K', hK', hT, ho⟩ := h.erodeKernel hk hK hodd
  obtain ⟨r, r', h1, h2, _, _, h5⟩ := hT.iter ho n.toNat h hK.fits.dims hK'.fits.dims
  exact ⟨r, r', by rw [erodeN_iter hK]; exact h1, by rw [erodeN_iter hK']; exact h2, h5⟩

theorem Turned.reaches {F : String → Bool} {data data' r r' : LArr V} {mask mask' : LArr Bool} (h : Turned F data data') (hm : Turned F mask mask') (hr : Turned F r r')
    (e : r.dims = data.dims ∧ r.shape = data.shape) (e' : r'.dims = data'.dims) (hsub : ∀ d ∈ mask.dims, d ∈ data.dims ∧ mask.size d = data.size d) :
    Reaches mask' data' r' ↔ Reaches mask data r := by
  have key : ∀ P : String → Nat, (∀ d ∈ data.dims, P d < data.size d) →
      maskAt mask' data' (data'.dims.map (flipPos F data.size P)) = maskAt mask data (data.dims.map P) ∧
      r'.val (data'.dims.map (flipPos F data.size P)) = r.val (data.dims.map P) := by
    intro P hP
    constructor
    · unfold maskAt
      have hmP : ∀ d ∈ mask.dims, P d < mask.size d := fun d hd => by rw [(hsub d hd).2]; exact hP d (hsub d hd).1
      have hv := hm.vals P hmP
      unfold LArr.at at hv
      have c1 : mask.dims.map (look data.dims (data.dims.map P)) = mask.dims.map P :=
        List.map_congr_left fun d hd => look_map _ _ _ (hsub d hd).1
      have c2 : mask'.dims.map (look data'.dims (data'.dims.map (flipPos F data.size P))) = mask'.dims.map (flipPos F mask.size P) :=
        List.map_congr_left fun d hd => by
          have hd' := hsub d ((hm.dims d).1 hd)
          rw [look_map _ _ _ ((h.dims d).2 hd'.1)]
          exact flipPos_congr hd'.2.symm rfl
      rw [c1, c2, hv]
    · have hs : ∀ d, r.size d = data.size d := fun d => by unfold LArr.size; rw [e.1, e.2]
      have := hr.vals P (fun d hd => by rw [hs]; exact hP d (by rw [← e.1]; exact hd))
      unfold LArr.at at this
      rw [e.1, e', show r.size = data.size from funext hs] at this
      exact this
  unfold Reaches
  constructor
  · intro H p hp hmp
    obtain ⟨p1, p2⟩ := inShape_named h.aok hp
    obtain ⟨k1, k2⟩ := key _ p1
    rw [p2] at k1 k2
    obtain ⟨v, hv⟩ := H _ (named_inShape h.bok (h.inB p1)) (by rw [k1]; exact hmp)
    exact ⟨v, by rw [← k2]; exact hv⟩
  · intro H p hp hmp
    obtain ⟨p1, p2⟩ := inShape_named h.bok hp
    have hb : ∀ d ∈ data.dims, look data'.dims p d < data.size d := fun d hd => by rw [← h.sizes d hd]; exact p1 d ((h.dims d).2 hd)
    have hP : ∀ d ∈ data.dims, flipPos F data.size (look data'.dims p) d < data.size d := fun d hd => flipPos_lt (hb d hd)
    obtain ⟨k1, k2⟩ := key _ hP
    have ep : data'.dims.map (flipPos F data.size (flipPos F data.size (look data'.dims p))) = p := by
      conv_rhs => rw [← p2]
      exact List.map_congr_left fun d hd => flipPos_flip (hb d ((h.dims d).1 hd))
    rw [ep] at k1 k2
    obtain ⟨v, hv⟩ := H _ (named_inShape h.aok hP) (by rw [← k1]; exact hmp)
    exact ⟨v, by rw [k2]; exact hv⟩

/-- **C188 (`erode_mask` down to a mask).** With the target mask turned like the data, the loop ends after the same number of turns or never, and gives the eroded data turned in the same way. -/
theorem C188_erode_until (F : String → Bool) (data data' : LArr V) (k k' K : LArr ℚ) (mask mask' : LArr Bool) (h : Turned F data data') (hk : Turned F k k')
    (hm : Turned F mask mask') (hK : ErodeKernel data (.da k) K) (hmask : TargetMask mask data K) (hodd : ∀ d ∈ k.dims, F d = true → k.size d % 2 = 1) (fuel : Nat) :
    (erodeMaskUntil data mask (.da k) fuel = none ∧ erodeMaskUntil data' mask' (.da k') fuel = none) ∨
    ∃ r r', erodeMaskUntil data mask (.da k) fuel = some (.ok r) ∧ erodeMaskUntil data' mask' (.da k') fuel = some (.ok r') ∧ Turned F r r' := by
  obtain ⟨K', hK', hT, ho⟩ := h.erodeKernel hk hK hodd
  have hsub : ∀ d ∈ mask.dims, d ∈ data.dims ∧ mask.size d = data.size d := fun d hd =>
    ⟨kDims_sub data K hK.fits d ((hmask.dims d).1 hd), hmask.sizes d hd⟩
  have hmask' : TargetMask mask' data' K' := by
    refine ⟨hm.bok, fun d => ?_, fun d hd => ?_⟩
    · rw [hm.dims d, hT.kDims d]; exact hmask.dims d
    · have hd' := (hm.dims d).1 hd
      rw [hm.sizes d hd', h.sizes d (hsub d hd').1]; exact (hsub d hd').2
  have hstep : ∀ n : Nat, ∃ r r', erodeMaskN data n (.da k) = .ok r ∧ erodeMaskN data' n (.da k') = .ok r' ∧ Turned F r r' ∧ (Reaches mask' data' r' ↔ Reaches mask data r) := by
    intro n
    obtain ⟨r, r', h1, h2, h3, h4, h5⟩ := hT.iter ho n h hK.fits.dims hK'.fits.dims
    obtain ⟨s, s1, s2, s3, _⟩ := iter_ok K n data hK.fits
    rw [h1] at s1; cases s1
    exact ⟨r, r', by rw [erodeN_iter hK]; exact h1, by rw [erodeN_iter hK']; exact h2, h5, h.reaches hm h5 ⟨s2, s3⟩ h4 hsub⟩
  have hiff : (erodeMaskUntil data' mask' (.da k') fuel).isSome ↔ (erodeMaskUntil data mask (.da k) fuel).isSome := by
    rw [C26_returns_iff data (.da k) K hK mask hmask fuel, C26_returns_iff data' (.da k') K' hK' mask' hmask' fuel]
    constructor
    · rintro ⟨n, s', n1, n2, n3, n4⟩
      obtain ⟨r, r', a1, a2, _, a4⟩ := hstep n
      rw [a2] at n3; cases n3
      exact ⟨n, r, n1, n2, a1, a4.1 n4⟩
    · rintro ⟨n, s', n1, n2, n3, n4⟩
      obtain ⟨r, r', a1, a2, _, a4⟩ := hstep n
      rw [a1] at n3; cases n3
      exact ⟨n, r', n1, n2, a2, a4.2 n4⟩
  cases hu : erodeMaskUntil data mask (.da k) fuel with
  | none =>
    left
    refine ⟨rfl, ?_⟩
    cases hu' : erodeMaskUntil data' mask' (.da k') fuel with
    | none => rfl
    | some o => rw [hu, hu'] at hiff; simp at hiff
  | some o =>
    right
    obtain ⟨n, r, n1, n2, n3, n4, n5, n6⟩ := C26_result data (.da k) K hK mask hmask fuel o hu
    cases hu' : erodeMaskUntil data' mask' (.da k') fuel with
    | none => rw [hu, hu'] at hiff; simp at hiff
    | some o' =>
      obtain ⟨m, r', m1, m2, m3, m4, m5, m6⟩ := C26_result data' (.da k') K' hK' mask' hmask' fuel o' hu'
      have hnm : n = m := by
        rcases Nat.lt_trichotomy n m with hlt | heq | hlt
        · obtain ⟨s, s', a1, a2, _, a4⟩ := hstep n
          rw [a1] at n4; cases n4
          exact absurd (a4.2 n5) (m6 n s' n1 hlt a2)
        · exact heq
        · obtain ⟨s, s', a1, a2, _, a4⟩ := hstep m
          rw [a2] at m4; cases m4
          exact absurd (a4.1 m5) (n6 m s m1 hlt a1)
      subst hnm
      obtain ⟨s, s', a1, a2, a3, _⟩ := hstep n
      rw [a1] at n4
      rw [a2] at m4
      rw [Except.ok.inj n4, Except.ok.inj m4] at a3
      exact ⟨r, r', by rw [n3], by rw [m3], a3⟩

/-- the default kernel is its own turned kernel, along any of its dimensions and in any order of them -/
theorem shapiro_turned (F : String → Bool) (ydim xdim : String) (hne : ydim ≠ xdim) :
    Turned F (shapiroKernel [ydim, xdim]) (shapiroKernel [ydim, xdim]) ∧ Turned F (shapiroKernel [ydim, xdim]) (shapiroKernel [xdim, ydim]) := by
  have hy : (shapiroKernel [ydim, xdim]).size ydim = 3 := by simp [LArr.size, shapiroKernel, look]
  have hx : (shapiroKernel [ydim, xdim]).size xdim = 3 := by simp [LArr.size, shapiroKernel, look, hne.symm]
  have hy' : (shapiroKernel [xdim, ydim]).size ydim = 3 := by simp [LArr.size, shapiroKernel, look, hne]
  have hx' : (shapiroKernel [xdim, ydim]).size xdim = 3 := by simp [LArr.size, shapiroKernel, look]
  have hv : ∀ i : Nat, i < 3 → (if 3 - 1 - i = 2 then (0 : ℚ) else ((3 - 1 - i : Nat) : ℚ)) = if i = 2 then 0 else (i : ℚ) := by
    intro i hi
    have : i = 0 ∨ i = 1 ∨ i = 2 := by omega
    rcases this with rfl | rfl | rfl <;> simp
  have hf : ∀ (P : String → Nat) (d : String), P d < 3 → (shapiroKernel [ydim, xdim]).size d = 3 →
      (if flipPos F (shapiroKernel [ydim, xdim]).size P d = 2 then (0 : ℚ) else (flipPos F (shapiroKernel [ydim, xdim]).size P d : ℚ)) = if P d = 2 then 0 else (P d : ℚ) := by
    intro P d h3 hs
    unfold flipPos
    rw [hs]
    split
    · exact hv _ h3
    · rfl
  have hsum : ∀ (ds : List String) (idx : List Nat), (shapiroKernel ds).val idx = (idx.map (fun i : Nat => if i = 2 then (0 : ℚ) else (i : ℚ))).sum := fun _ _ => rfl
  refine ⟨⟨shapiro_ok _ (by simp [hne]), shapiro_ok _ (by simp [hne]), fun d => Iff.rfl, fun d _ => rfl, ?_⟩,
    ⟨shapiro_ok _ (by simp [hne]), shapiro_ok _ (by simp [hne.symm]), ?_, ?_, ?_⟩⟩
  · intro P hP
    have h1 := hP ydim (by simp [shapiroKernel])
    have h2 := hP xdim (by simp [shapiroKernel])
    rw [hy] at h1; rw [hx] at h2
    have a1 := hf P ydim h1 hy
    have a2 := hf P xdim h2 hx
    show (shapiroKernel [ydim, xdim]).val ([ydim, xdim].map _) = (shapiroKernel [ydim, xdim]).val ([ydim, xdim].map _)
    rw [hsum, hsum]
    simp only [List.map_cons, List.map_nil, List.sum_cons, List.sum_nil]
    rw [a1, a2]
  · intro d; simp [shapiroKernel, or_comm]
  · intro d hd
    simp only [shapiroKernel, List.mem_cons, List.not_mem_nil, or_false] at hd
    rcases hd with rfl | rfl
    · rw [hy, hy']
    · rw [hx, hx']
  · intro P hP
    have h1 := hP ydim (by simp [shapiroKernel])
    have h2 := hP xdim (by simp [shapiroKernel])
    rw [hy] at h1; rw [hx] at h2
    have a1 := hf P ydim h1 hy
    have a2 := hf P xdim h2 hx
    show (shapiroKernel [xdim, ydim]).val ([xdim, ydim].map _) = (shapiroKernel [ydim, xdim]).val ([ydim, xdim].map _)
    rw [hsum, hsum]
    simp only [List.map_cons, List.map_nil, List.sum_cons, List.sum_nil]
    rw [a1, a2]; ring

/-- **C188 (default kernel).** With the default kernel nothing has to be turned but the data: eroding the mask of the turned data gives the turned eroded data. -/
theorem C188_erode_default (F : String → Bool) (data data' : LArr V) (h : Turned F data data') (ydim xdim : String) (hne : ydim ≠ xdim) (hy : ydim ∈ data.dims)
    (hx : xdim ∈ data.dims) (n : Int) :
    ∃ r r', erodeMaskN data n (.da (shapiroKernel [ydim, xdim])) = .ok r ∧ erodeMaskN data' n (.da (shapiroKernel [ydim, xdim])) = .ok r' ∧ Turned F r r' := by
  obtain ⟨K, hK, _, _⟩ := shapiro_erode data h.aok ydim xdim hne hy hx
  refine C188_erode F data data' _ _ K h (shapiro_turned F ydim xdim hne).1 hK ?_ n
  intro d hd _
  simp only [shapiroKernel, List.mem_cons, List.not_mem_nil, or_false] at hd
  rcases hd with rfl | rfl
  · simp [LArr.size, shapiroKernel, look]
  · simp [LArr.size, shapiroKernel, look, hne.symm]

/-! ## integer sizes -/

theorem prod_ones (names : List String) (m : Nat) (pos : String → Nat) (h : ∀ d ∈ names, pos d < m) :
    (List.zipWith (fun d (v : List ℚ) => v.getD (pos d) 0) names (names.map fun _ => onesWindow m)).prod = 1 := by
  induction names with
  | nil => rfl
  | cons a l ih =>
    simp only [List.map_cons, List.zipWith_cons_cons, List.prod_cons]
    rw [ih (fun d hd => h d (by simp [hd]))]
    have := h a (by simp)
    simp [onesWindow, List.getD, this]

theorem intKernel (dims : List String) (hd : dims.Nodup) (h0 : dims ≠ []) (m : Nat) (hm : dims.length ≤ 2 ∨ m = 1) :
    ∃ k, generateKernel onesWindow 0 (.int m) dims = .ok k ∧ k.Ok ∧ k.dims = dims ∧ (∀ d ∈ dims, k.size d = m) ∧
      ∀ pos : String → Nat, (∀ d ∈ dims, pos d < m) → k.at pos = 1 := by
  have e1 : (dims.map (fun d => (d, K1.int m))).map (·.1) = dims := by rw [List.map_map]; exact List.map_id _
  have e2 : (dims.map (fun d => (d, K1.int m))).map (·.2) = dims.map fun _ => K1.int m := by rw [List.map_map]; rfl
  have hlen : (onesWindow m).length = m := by simp [onesWindow]
  obtain ⟨k, k1, k2, k3, k4, k5, k6⟩ := C27_tensor_product_partial onesWindow 0 (dims.map (fun d => (d, K1.int m))) (dims.map fun _ => onesWindow m) dims hd
    (by rw [e1]; exact hd) (by rw [e1]; exact fun d h => h)
    (by
      rw [e2]
      unfold Kernels1d
      rw [List.forall₂_map_left_iff, List.forall₂_map_right_iff]
      refine List.forall₂_same.2 fun d _ => ?_
      rw [← C27_kernel1d]
      simp [kernel1d])
    (by simpa using h0)
    (by
      intro v hv
      rcases hm with hm | rfl
      · exfalso
        have : 0 < ((dims.map fun _ => onesWindow m).tail.dropLast).length := List.length_pos_of_mem hv
        simp at this
        omega
      · have := List.mem_of_mem_tail (List.dropLast_subset _ hv)
        simp only [List.mem_map] at this
        obtain ⟨_, _, rfl⟩ := this
        exact hlen)
  have hs : ∀ d ∈ dims, k.size d = m := by
    intro d hd'
    rw [k4 d (onesWindow m) ?_, hlen]
    rw [e1]
    clear * - hd'
    induction dims with
    | nil => simp at hd'
    | cons a l ih =>
      simp only [List.map_cons, List.zip_cons_cons, List.mem_cons, Prod.mk.injEq, and_true]
      rcases List.mem_cons.1 hd' with h | h
      · exact Or.inl h
      · exact Or.inr (ih h)
  refine ⟨k, by rw [(C27_forms onesWindow 0 dims m [] []).1]; exact k1, k2, k3, hs, ?_⟩
  intro pos hp
  rw [k6 pos (fun d hd' => by rw [hs d hd']; exact hp d hd'), e1]
  exact prod_ones dims m pos hp

/-- **C188 (integer sizes).** The moving mean of odd size of the turned data is the turned moving mean of the data (one or two dimensions, see C27). -/
theorem C188_int (F : String → Bool) (data data' : LArr V) (h : Turned F data data') (h0 : data.dims ≠ []) (h2 : data.dims.length ≤ 2) (m : Nat) (hm : m % 2 = 1) (normalize : Bool) :
    ∃ r r', convolve data (.int m) normalize = .ok r ∧ convolve data' (.int m) normalize = .ok r' ∧ Turned F r r' := by
  have p1 : data'.dims.length = data.dims.length :=
    ((List.perm_ext_iff_of_nodup h.bok.nodup h.aok.nodup).2 h.dims).length_eq
  obtain ⟨k, k1, k2, k3, k4, k5⟩ := intKernel data.dims h.aok.nodup h0 m (Or.inl h2)
  obtain ⟨k', c1, c2, c3, c4, c5⟩ := intKernel data'.dims h.bok.nodup (by intro hc; rw [hc] at p1; exact h0 (List.length_eq_zero_iff.1 p1.symm)) m (Or.inl (by omega))
  have hk : Turned F k k' := by
    refine ⟨k2, c2, fun d => by rw [k3, c3]; exact h.dims d, fun d hd => ?_, fun P hP => ?_⟩
    · rw [k3] at hd; rw [k4 d hd, c4 d ((h.dims d).2 hd)]
    · rw [k5 P (fun d hd => by rw [← k4 d hd]; exact hP d (by rw [k3]; exact hd))]
      refine c5 _ fun d hd => ?_
      have hd' := (h.dims d).1 hd
      rw [← k4 d hd']
      exact flipPos_lt (hP d (by rw [k3]; exact hd'))
  obtain ⟨r, r', a1, a2, a3⟩ := h.conv hk k3 c3 (fun d hd _ => by rw [k3] at hd; rw [k4 d hd]; exact hm) normalize
  refine ⟨r, r', ?_, ?_, a3⟩
  · unfold convolve; rw [k1]; exact a1
  · unfold convolve; rw [c1]; exact a2

/-! ## concrete cases -/

/-- data with two dimensions -/
def turnData : LArr V := ⟨["y", "x"], [2, 3], fun p => match p with | [0, 0] => some 1 | [0, 1] => some 2 | [0, 2] => none | [1, 0] => some 5 | [1, 1] => none | [1, 2] => some 9 | _ => none⟩

/-- the same data, transposed, with `x` reversed -/
def turnData' : LArr V := ⟨["x", "y"], [3, 2], fun p => match p with | [2, 0] => some 1 | [1, 0] => some 2 | [0, 0] => none | [2, 1] => some 5 | [1, 1] => none | [0, 1] => some 9 | _ => none⟩

theorem turnData_turned : Turned (fun d => d == "x") turnData turnData' := by
  refine ⟨⟨by decide, by decide⟩, ⟨by decide, by decide⟩, by intro d; simp [turnData, turnData', or_comm], ?_, ?_⟩
  · intro d hd
    simp only [turnData, List.mem_cons, List.not_mem_nil, or_false] at hd
    rcases hd with rfl | rfl <;> decide
  · intro P hP
    have h1 : P "y" < 2 := hP "y" (by decide)
    have h2 : P "x" < 3 := hP "x" (by decide)
    show turnData'.val [2 - P "x", P "y"] = turnData.val [P "y", P "x"]
    have a : P "y" = 0 ∨ P "y" = 1 := by omega
    have b : P "x" = 0 ∨ P "x" = 1 ∨ P "x" = 2 := by omega
    rcases a with a | a <;> rcases b with b | b | b <;> rw [a, b] <;> rfl

example : ∃ r r', convolve turnData (.int 3) true = .ok r ∧ convolve turnData' (.int 3) true = .ok r' ∧ Turned (fun d => d == "x") r r' :=
  C188_int _ _ _ turnData_turned (by decide) (by decide) 3 (by decide) true

example (n : Int) : ∃ r r', erodeMaskN turnData n (.da (shapiroKernel ["y", "x"])) = .ok r ∧ erodeMaskN turnData' n (.da (shapiroKernel ["y", "x"])) = .ok r' ∧
    Turned (fun d => d == "x") r r' := C188_erode_default _ _ _ turnData_turned "y" "x" (by decide) (by decide) (by decide) n

/-- With an even size the window has one more datum on one side: the moving mean of size 2 of reversed data is not the reversed moving mean. -/
theorem even_kernel_reversed :
    (convolve ⟨["x"], [3], fun p => match p with | [0] => some 0 | [1] => some 2 | _ => some 8⟩ (.int 2) true).toOption.map (fun r => (positions r.shape).map r.val) = some [some 0, some 1, some 5] ∧
    (convolve ⟨["x"], [3], fun p => match p with | [2] => some 0 | [1] => some 2 | _ => some 8⟩ (.int 2) true).toOption.map (fun r => (positions r.shape).map r.val) = some [some 8, some 5, some 1] := by
  decide +kernel

end Xoa
