import Verif.FilterLemmas

namespace Xoa

theorem sum_mulLeft {α} (l : List α) (a : ℚ) (f : α → ℚ) : (l.map (fun q => a * f q)).sum = a * (l.map f).sum := by
  induction l with
  | nil => simp
  | cons x l ih => simp only [List.map_cons, List.sum_cons, ih]; ring

theorem sum_addMap {α} (l : List α) (f g : α → ℚ) : (l.map (fun q => f q + g q)).sum = (l.map f).sum + (l.map g).sum := by
  induction l with
  | nil => simp
  | cons x l ih => simp only [List.map_cons, List.sum_cons, ih]; ring

/-! ## C22: normalised convolution -/

/-- the datum at `q` is available and counts for the result at `p` -/
def Available (data : LArr V) (k : LArr ℚ) (p q : List Nat) : Prop :=
  InShape data.shape q ∧ (∃ v, data.val q = some v) ∧ 0 < kAt k p q

theorem availWeight_pos_iff (data : LArr V) (k : LArr ℚ) (hk : KNonneg k) (p : List Nat) :
    0 < availWeight data k p ↔ ∃ q, Available data k p q := by
  constructor
  · intro h
    by_contra hc
    have : availWeight data k p ≤ 0 := by
      have h0 : ((positions data.shape).map (fun _ => (0 : ℚ))).sum = 0 := by simp
      unfold availWeight
      rw [← h0]
      refine list_sum_le _ _ _ ?_
      intro q hq
      cases hv : data.val q with
      | none => simp
      | some v =>
        have : ¬ 0 < kAt k p q := fun h1 => hc ⟨q, (mem_positions _ _).1 hq, ⟨v, hv⟩, h1⟩
        simp only [Option.elim]
        linarith
    linarith
  · rintro ⟨q, h1, ⟨v, hv⟩, h2⟩
    have h3 : kAt k p q ≤ availWeight data k p := by
      unfold availWeight
      have hm : kAt k p q ∈ (positions data.shape).map (fun q => (data.val q).elim 0 (fun _ => kAt k p q)) :=
        List.mem_map.2 ⟨q, (mem_positions _ _).2 h1, by simp [hv]⟩
      refine List.single_le_sum ?_ _ hm
      intro x hx
      simp only [List.mem_map] at hx
      obtain ⟨q', _, rfl⟩ := hx
      cases data.val q'
      · simp
      · exact kAt_nonneg k hk p q'
    linarith

theorem mean_bounds (data : LArr V) (k : LArr ℚ) (hk : KNonneg k) (p : List Nat) (lo hi : ℚ)
    (h : ∀ q v, InShape data.shape q → data.val q = some v → 0 < kAt k p q → lo ≤ v ∧ v ≤ hi) :
    lo * availWeight data k p ≤ availSum data k p ∧ availSum data k p ≤ hi * availWeight data k p := by
  have key : ∀ c : ℚ, c * availWeight data k p = ((positions data.shape).map (fun q => (data.val q).elim 0 (fun _ => kAt k p q * c))).sum := by
    intro c
    unfold availWeight
    rw [← sum_mulLeft]
    congr 1
    apply List.map_congr_left
    intro q _
    cases data.val q with
    | none => simp
    | some v => simp [mul_comm]
  rw [key lo, key hi]
  unfold availSum
  constructor
  · refine list_sum_le _ _ _ ?_
    intro q hq
    cases hv : data.val q with
    | none => simp
    | some v =>
      simp only [Option.elim]
      rcases (kAt_nonneg k hk p q).eq_or_lt with h0 | h0
      · rw [← h0]; simp
      · exact mul_le_mul_of_nonneg_left (h q v ((mem_positions _ _).1 hq) hv h0).1 h0.le
  · refine list_sum_le _ _ _ ?_
    intro q hq
    cases hv : data.val q with
    | none => simp
    | some v =>
      simp only [Option.elim]
      rcases (kAt_nonneg k hk p q).eq_or_lt with h0 | h0
      · rw [← h0]; simp
      · exact mul_le_mul_of_nonneg_left (h q v ((mem_positions _ _).1 hq) hv h0).2 h0.le

/-- C22: a result that is not missing is the mean of the available data weighted by the kernel, there is at least one of them, the
mean lies between their extrema, and the layout is kept. -/
theorem C22_weighted_mean (data r : LArr V) (k : LArr ℚ) (hk : KNonneg k) (hr : convolveNd data k true = .ok r) :
    r.dims = data.dims ∧ r.shape = data.shape ∧
    ∀ p x, r.val p = some x →
      (∃ q, Available data k p q) ∧
      x = availSum data k p / availWeight data k p ∧
      ∀ lo hi, (∀ q v, Available data k p q → data.val q = some v → lo ≤ v ∧ v ≤ hi) → lo ≤ x ∧ x ≤ hi := by
  have hl : data.shape.length = k.shape.length := by
    by_contra hc
    unfold convolveNd at hr
    rw [if_pos hc] at hr
    cases hr
  obtain ⟨r', e, h1, h2, h3⟩ := convolveNd_spec data k hk hl true
  rw [hr] at e
  cases e
  refine ⟨h1, h2, ?_⟩
  intro p x hx
  have hn : ¬ (HasMissing data ∧ availWeight data k p ≤ 1 / 1000000 * kSum k) := by
    rintro ⟨a, b⟩
    rw [(h3 p).1 a b] at hx
    cases hx
  have := (h3 p).2 hn
  rw [hx] at this
  simp only [if_true] at this
  unfold V.div at this
  dsimp only at this
  split at this
  · cases this
  · rename_i hw
    have hpos : 0 < availWeight data k p := lt_of_le_of_ne (availWeight_nonneg data k hk p) (Ne.symm hw)
    have hxe : x = availSum data k p / availWeight data k p := Option.some.inj this
    refine ⟨(availWeight_pos_iff data k hk p).1 hpos, hxe, ?_⟩
    intro lo hi hb
    obtain ⟨b1, b2⟩ := mean_bounds data k hk p lo hi (fun q v a b c => hb q v ⟨a, ⟨v, b⟩, c⟩ b)
    rw [hxe]
    exact ⟨(le_div_iff₀ hpos).2 b1, (div_le_iff₀ hpos).2 b2⟩

/-- C22: constants are preserved, whatever is missing -/
theorem C22_constant (data r : LArr V) (k : LArr ℚ) (hk : KNonneg k) (hr : convolveNd data k true = .ok r) (c : ℚ)
    (hc : ∀ q v, InShape data.shape q → data.val q = some v → v = c) (p : List Nat) (x : ℚ) (hx : r.val p = some x) : x = c := by
  obtain ⟨-, -, h⟩ := C22_weighted_mean data r k hk hr
  obtain ⟨-, -, hb⟩ := h p x hx
  have := hb c c (fun q v hq hv => by rw [hc q v hq.1 hv]; exact ⟨le_refl _, le_refl _⟩)
  linarith [this.1, this.2]

/-- C22, when the data have no missing value: the result is missing exactly where no datum is reached by the kernel -/
theorem C22_missing_complete (data r : LArr V) (k : LArr ℚ) (hk : KNonneg k) (hr : convolveNd data k true = .ok r) (hm : ¬ HasMissing data)
    (p : List Nat) : r.val p = none ↔ ¬ ∃ q, Available data k p q := by
  have hl : data.shape.length = k.shape.length := by
    by_contra hc
    unfold convolveNd at hr
    rw [if_pos hc] at hr
    cases hr
  obtain ⟨r', e, h1, h2, h3⟩ := convolveNd_spec data k hk hl true
  rw [hr] at e
  cases e
  rw [(h3 p).2 (fun h => hm h.1)]
  simp only [if_true]
  rw [← availWeight_pos_iff data k hk p]
  unfold V.div
  dsimp only
  have := availWeight_nonneg data k hk p
  split
  · rename_i h; simp [h]
  · rename_i h
    constructor
    · intro h'; cases h'
    · intro h'; exact absurd (lt_of_le_of_ne this (Ne.symm h)) h'

/-- C77, partial, when some data are missing: the result is missing exactly where the weight of the available data is at most one
millionth of the sum of the kernel. In particular it is missing where no datum is available, and present where an available datum
weighs more than that. Missing: available data that weigh less are lost (`C77_tolerance_violated`). -/
theorem C77_missing_partial (data r : LArr V) (k : LArr ℚ) (hk : KNonneg k) (hr : convolveNd data k true = .ok r) (hm : HasMissing data)
    (p : List Nat) :
    (r.val p = none ↔ availWeight data k p ≤ 1 / 1000000 * kSum k) ∧
    ((¬ ∃ q, Available data k p q) → r.val p = none) ∧
    ((∃ q, Available data k p q ∧ 1 / 1000000 * kSum k < kAt k p q) → r.val p ≠ none) := by
  have hl : data.shape.length = k.shape.length := by
    by_contra hc
    unfold convolveNd at hr
    rw [if_pos hc] at hr
    cases hr
  obtain ⟨r', e, h1, h2, h3⟩ := convolveNd_spec data k hk hl true
  rw [hr] at e
  cases e
  have hs := kSum_nonneg k hk
  have hiff : r.val p = none ↔ availWeight data k p ≤ 1 / 1000000 * kSum k := by
    constructor
    · intro h
      by_contra hc
      rw [(h3 p).2 (fun h => hc h.2)] at h
      simp only [if_true] at h
      unfold V.div at h
      dsimp only at h
      split at h
      · rename_i h0
        rw [h0] at hc
        exact hc (by positivity)
      · cases h
    · exact (h3 p).1 hm
  refine ⟨hiff, ?_, ?_⟩
  · intro h
    rw [hiff]
    have : ¬ 0 < availWeight data k p := fun h' => h ((availWeight_pos_iff data k hk p).1 h')
    have h0 : availWeight data k p ≤ 0 := not_lt.1 this
    have : (0 : ℚ) ≤ 1 / 1000000 * kSum k := by positivity
    linarith
  · rintro ⟨q, ⟨h4, ⟨v, hv⟩, h5⟩, h6⟩ h
    rw [hiff] at h
    have h7 : kAt k p q ≤ availWeight data k p := by
      unfold availWeight
      have hmem : kAt k p q ∈ (positions data.shape).map (fun q => (data.val q).elim 0 (fun _ => kAt k p q)) :=
        List.mem_map.2 ⟨q, (mem_positions _ _).2 h4, by simp [hv]⟩
      refine List.single_le_sum ?_ _ hmem
      intro x hx
      simp only [List.mem_map] at hx
      obtain ⟨q', _, rfl⟩ := hx
      cases data.val q'
      · simp
      · exact kAt_nonneg k hk p q'
    linarith

/-- 1-D data -/
def fData (l : List V) : LArr V := ⟨["x"], [l.length], fun idx => l.getD (idx.getD 0 0) none⟩
/-- 1-D kernel -/
def fKer (l : List ℚ) : LArr ℚ := ⟨["x"], [l.length], fun idx => l.getD (idx.getD 0 0) 0⟩

theorem fKer_nonneg (l : List ℚ) (h : ∀ x ∈ l, 0 ≤ x) : KNonneg (fKer l) := by
  intro j _
  show 0 ≤ l.getD (j.getD 0 0) 0
  rw [List.getD_eq_getElem?_getD]
  cases h1 : l[j.getD 0 0]? with
  | none => exact le_refl _
  | some x => exact h x (List.mem_of_getElem? h1)

/-- values of the result on 1-D data -/
def fVals (r : Except CErr (LArr V)) : Option (List V) := r.toOption.map (fun a => (positions a.shape).map a.val)

-- a weighted mean with a missing datum
example : KNonneg (fKer [1, 2, 1]) ∧
    fVals (convolveNd (fData [some 1, none, some 5, some 7, none, none, none]) (fKer [1, 2, 1]) true) =
      some [some 1, some 3, some (17/3), some (19/3), some 7, none, none] :=
  ⟨fKer_nonneg _ (by decide), by decide +kernel⟩

/-- C77 is false of light neighbours: the only available neighbour of the second point has a weight of 1, the missing centre a weight of
ten millions, and the result is missing. -/
theorem C77_tolerance_violated :
    KNonneg (fKer [0, 10000000, 1]) ∧ Available (fData [some 5, none]) (fKer [0, 10000000, 1]) [1] [0] ∧
    fVals (convolveNd (fData [some 5, none]) (fKer [0, 10000000, 1]) true) = some [some 5, none] :=
  ⟨fKer_nonneg _ (by decide), ⟨⟨by decide, trivial⟩, ⟨5, rfl⟩, by decide +kernel⟩, by decide +kernel⟩

/-! ## C23: plain convolution -/

/-- data without missing value -/
def full (dims : List String) (shape : List Nat) (f : List Nat → ℚ) : LArr V := ⟨dims, shape, fun p => some (f p)⟩

theorem convolveNd_full (dims : List String) (shape : List Nat) (f : List Nat → ℚ) (k : LArr ℚ) (hl : shape.length = k.shape.length) :
    ∃ r, convolveNd (full dims shape f) k false = .ok r ∧ r.dims = dims ∧ r.shape = shape ∧ ∀ p, r.val p = some (conv shape f k p) := by
  unfold convolveNd
  rw [if_neg (by simpa [full] using hl)]
  refine ⟨_, rfl, rfl, rfl, ?_⟩
  intro p
  have : ((positions (full dims shape f).shape).any fun q => ((full dims shape f).val q).isNone) = false := by
    simp [full, List.any_eq_false]
  dsimp only
  rw [this]
  simp [full]

/-- C23: linearity in the data -/
theorem C23_linear_data (dims : List String) (shape : List Nat) (f g : List Nat → ℚ) (a b : ℚ) (k : LArr ℚ) (hl : shape.length = k.shape.length) :
    ∃ r rf rg, convolveNd (full dims shape (fun p => a * f p + b * g p)) k false = .ok r ∧
      convolveNd (full dims shape f) k false = .ok rf ∧ convolveNd (full dims shape g) k false = .ok rg ∧
      ∀ p, ∃ x y, rf.val p = some x ∧ rg.val p = some y ∧ r.val p = some (a * x + b * y) := by
  obtain ⟨r, h1, -, -, h2⟩ := convolveNd_full dims shape (fun p => a * f p + b * g p) k hl
  obtain ⟨rf, f1, -, -, f2⟩ := convolveNd_full dims shape f k hl
  obtain ⟨rg, g1, -, -, g2⟩ := convolveNd_full dims shape g k hl
  refine ⟨r, rf, rg, h1, f1, g1, ?_⟩
  intro p
  refine ⟨_, _, f2 p, g2 p, ?_⟩
  rw [h2 p]
  congr 1
  unfold conv
  rw [← sum_mulLeft, ← sum_mulLeft, ← sum_addMap]
  congr 1
  apply List.map_congr_left
  intro q _
  ring

/-- C23: linearity in the kernel -/
theorem C23_linear_kernel (dims kdims : List String) (shape kshape : List Nat) (f k1 k2 : List Nat → ℚ) (a b : ℚ) (hl : shape.length = kshape.length) :
    ∃ r r1 r2, convolveNd (full dims shape f) ⟨kdims, kshape, fun j => a * k1 j + b * k2 j⟩ false = .ok r ∧
      convolveNd (full dims shape f) ⟨kdims, kshape, k1⟩ false = .ok r1 ∧ convolveNd (full dims shape f) ⟨kdims, kshape, k2⟩ false = .ok r2 ∧
      ∀ p, ∃ x y, r1.val p = some x ∧ r2.val p = some y ∧ r.val p = some (a * x + b * y) := by
  obtain ⟨r, h1, -, -, h2⟩ := convolveNd_full dims shape f ⟨kdims, kshape, fun j => a * k1 j + b * k2 j⟩ hl
  obtain ⟨rf, f1, -, -, f2⟩ := convolveNd_full dims shape f ⟨kdims, kshape, k1⟩ hl
  obtain ⟨rg, g1, -, -, g2⟩ := convolveNd_full dims shape f ⟨kdims, kshape, k2⟩ hl
  refine ⟨r, rf, rg, h1, f1, g1, ?_⟩
  intro p
  refine ⟨_, _, f2 p, g2 p, ?_⟩
  rw [h2 p]
  congr 1
  unfold conv
  rw [← sum_mulLeft, ← sum_mulLeft, ← sum_addMap]
  congr 1
  apply List.map_congr_left
  intro q _
  unfold kAt
  dsimp only
  cases kIdx kshape p q
  · simp
  · simp only [Option.elim]; ring

/-- the kernel is a unit impulse of odd sizes: 1 at its centre, 0 elsewhere -/
structure Impulse (k : LArr ℚ) : Prop where
  odd : ∀ n ∈ k.shape, n % 2 = 1
  centre : k.val (k.shape.map (fun n => n / 2)) = 1
  zero : ∀ j, InShape k.shape j → j ≠ k.shape.map (fun n => n / 2) → k.val j = 0

theorem kIdx_centre (ks p q : List Nat) (hodd : ∀ n ∈ ks, n % 2 = 1) : kIdx ks p q = some (ks.map (fun n => n / 2)) ↔ p = q ∧ p.length = ks.length := by
  induction ks generalizing p q with
  | nil => cases p <;> cases q <;> simp [kIdx]
  | cons k ks ih =>
    have hk : k % 2 = 1 := hodd k (by simp)
    cases p with
    | nil => simp [kIdx]
    | cons a p => cases q with
      | nil => simp [kIdx]
      | cons b q =>
        have h := ih p q (fun n hn => hodd n (by simp [hn]))
        simp only [kIdx, List.map_cons, List.cons.injEq, List.length_cons, Nat.add_right_cancel_iff]
        split
        · rename_i hc
          simp only [Option.map_eq_some_iff, List.cons.injEq]
          constructor
          · rintro ⟨t, h1, h2, h3⟩
            rw [h3] at h1
            exact ⟨⟨by omega, (h.1 h1).1⟩, (h.1 h1).2⟩
          · rintro ⟨⟨h1, h2⟩, h3⟩
            exact ⟨_, h.2 ⟨h2, h3⟩, by omega, rfl⟩
        · rename_i hc
          constructor
          · intro h'; cases h'
          · rintro ⟨⟨rfl, _⟩, _⟩
            exact absurd ⟨by omega, by omega⟩ hc

theorem kAt_impulse (k : LArr ℚ) (hk : Impulse k) (p q : List Nat) (hp : p.length = k.shape.length) : kAt k p q = if p = q then 1 else 0 := by
  unfold kAt
  split
  · rename_i h
    rw [(kIdx_centre k.shape p q hk.odd).2 ⟨h, hp⟩]
    exact hk.centre
  · rename_i h
    cases hj : kIdx k.shape p q with
    | none => rfl
    | some j =>
      refine hk.zero j (kIdx_inShape _ _ _ _ hj) ?_
      rintro rfl
      exact h ((kIdx_centre k.shape p q hk.odd).1 hj).1

theorem sum_indicator {α} [DecidableEq α] (l : List α) (hn : l.Nodup) (p : α) (hp : p ∈ l) (g : α → ℚ) :
    (l.map (fun q => (if p = q then 1 else 0) * g q)).sum = g p := by
  induction l with
  | nil => simp at hp
  | cons a l ih =>
    rw [List.nodup_cons] at hn
    simp only [List.map_cons, List.sum_cons]
    by_cases h : p = a
    · subst h
      have : (l.map (fun q => (if p = q then 1 else 0) * g q)).sum = 0 := by
        have : l.map (fun q => (if p = q then (1 : ℚ) else 0) * g q) = l.map (fun _ => 0) := by
          apply List.map_congr_left
          intro q hq
          have : p ≠ q := fun h => hn.1 (h ▸ hq)
          simp [this]
        rw [this]; simp
      rw [this]; simp
    · simp only [h, if_false, zero_mul, zero_add]
      exact ih hn.2 (by simpa [h] using hp)

/-- C23: the unit impulse of odd sizes gives back the data -/
theorem C23_identity (dims : List String) (shape : List Nat) (f : List Nat → ℚ) (k : LArr ℚ) (hk : Impulse k) (hl : shape.length = k.shape.length) :
    ∃ r, convolveNd (full dims shape f) k false = .ok r ∧ r.dims = dims ∧ r.shape = shape ∧
      ∀ p, InShape shape p → r.val p = some (f p) := by
  obtain ⟨r, h1, h2, h3, h4⟩ := convolveNd_full dims shape f k hl
  refine ⟨r, h1, h2, h3, ?_⟩
  intro p hp
  rw [h4 p]
  congr 1
  unfold conv
  have : (positions shape).map (fun q => kAt k p q * f q) = (positions shape).map (fun q => (if p = q then 1 else 0) * f q) := by
    apply List.map_congr_left
    intro q _
    rw [kAt_impulse k hk p q (by rw [inShape_length _ _ hp, hl])]
  rw [this, sum_indicator _ (positions_nodup shape) p ((mem_positions _ _).2 hp)]

theorem impulse_nonneg (k : LArr ℚ) (hk : Impulse k) : KNonneg k := by
  intro j hj
  by_cases h : j = k.shape.map (fun n => n / 2)
  · rw [h, hk.centre]; norm_num
  · rw [hk.zero j hj h]

theorem inShape_half (ks : List Nat) (h : ∀ n ∈ ks, n % 2 = 1) : InShape ks (ks.map (fun n => n / 2)) := by
  induction ks with
  | nil => trivial
  | cons n ns ih =>
    have := h n (by simp)
    exact ⟨by show n / 2 < n; omega, ih (fun m hm => h m (by simp [hm]))⟩

theorem impulse_sum (k : LArr ℚ) (hk : Impulse k) : kSum k = 1 := by
  unfold kSum
  have : (positions k.shape).map k.val = (positions k.shape).map (fun q => (if k.shape.map (fun n => n / 2) = q then 1 else 0) * 1) := by
    apply List.map_congr_left
    intro q hq
    split
    · rename_i h; rw [← h, hk.centre]; norm_num
    · rename_i h; rw [hk.zero q ((mem_positions _ _).1 hq) (Ne.symm h)]; norm_num
  rw [this]
  exact sum_indicator _ (positions_nodup _) _ ((mem_positions _ _).2 (inShape_half _ hk.odd)) (fun _ => 1)

/-- C23: the unit impulse gives back data with missing values too, normalised or not -/
theorem C23_identity_missing (data : LArr V) (k : LArr ℚ) (hk : Impulse k) (hl : data.shape.length = k.shape.length) (normalize : Bool) :
    ∃ r, convolveNd data k normalize = .ok r ∧ ∀ p, InShape data.shape p → r.val p = data.val p := by
  obtain ⟨r, h1, h2, h3, h4⟩ := convolveNd_spec data k (impulse_nonneg k hk) hl normalize
  refine ⟨r, h1, ?_⟩
  intro p hp
  have hpl : p.length = k.shape.length := by rw [inShape_length _ _ hp, hl]
  have hw : availWeight data k p = (data.val p).elim 0 (fun _ => 1) := by
    unfold availWeight
    have : (positions data.shape).map (fun q => (data.val q).elim 0 (fun _ => kAt k p q)) =
        (positions data.shape).map (fun q => (if p = q then 1 else 0) * ((data.val q).elim 0 (fun _ => 1) : ℚ)) := by
      apply List.map_congr_left
      intro q _
      rw [kAt_impulse k hk p q hpl]
      cases data.val q <;> simp
    rw [this, sum_indicator _ (positions_nodup _) p ((mem_positions _ _).2 hp)]
  have hs : availSum data k p = (data.val p).getD 0 := by
    unfold availSum
    have : (positions data.shape).map (fun q => (data.val q).elim 0 (fun v => kAt k p q * v)) =
        (positions data.shape).map (fun q => (if p = q then 1 else 0) * (data.val q).getD 0) := by
      apply List.map_congr_left
      intro q _
      rw [kAt_impulse k hk p q hpl]
      cases data.val q <;> simp
    rw [this, sum_indicator _ (positions_nodup _) p ((mem_positions _ _).2 hp)]
  have h6 := impulse_sum k hk
  cases hv : data.val p with
  | none =>
    exact (h4 p).1 ⟨p, hp, hv⟩ (by rw [hw, hv, h6]; simp)
  | some v =>
    rw [(h4 p).2 (by rw [hw, hv, h6]; simp; intro _; norm_num), hw, hs, hv]
    cases normalize <;> simp [V.div]

-- the impulse of size 3 x 1 and a convolution
example : Impulse ⟨["y", "x"], [3, 1], fun j => if j = [1, 0] then 1 else 0⟩ :=
  ⟨by decide, rfl, fun j _ h => if_neg h⟩
example : fVals (convolveNd (fData [some 1, some 2, some 4]) (fKer [1, 2, 3]) false) = some [some 4, some 11, some 14] := by decide +kernel

/-! ## C24: locality -/

/-- C24, any kernel: the result at a point depends only on the data that the kernel reaches from it, and on whether some datum is
missing anywhere. -/
theorem C24_footprint (data data' r r' : LArr V) (k : LArr ℚ) (normalize : Bool) (hr : convolveNd data k normalize = .ok r)
    (hr' : convolveNd data' k normalize = .ok r') (hs : data.shape = data'.shape) (p : List Nat)
    (h : ∀ q, InShape data.shape q → kAt k p q ≠ 0 → data.val q = data'.val q) (hm : HasMissing data ↔ HasMissing data') :
    r.val p = r'.val p := by
  have e1 : conv data.shape (fun q => (data.val q).getD 0) k p = conv data'.shape (fun q => (data'.val q).getD 0) k p := by
    unfold conv
    rw [← hs]
    congr 1
    apply List.map_congr_left
    intro q hq
    by_cases h0 : kAt k p q = 0
    · rw [h0]; simp
    · dsimp only; rw [h q ((mem_positions _ _).1 hq) h0]
  have e2 : conv data.shape (fun q => if (data.val q).isNone = true then 0 else 1) k p =
      conv data'.shape (fun q => if (data'.val q).isNone = true then 0 else 1) k p := by
    unfold conv
    rw [← hs]
    congr 1
    apply List.map_congr_left
    intro q hq
    by_cases h0 : kAt k p q = 0
    · rw [h0]; simp
    · dsimp only; rw [h q ((mem_positions _ _).1 hq) h0]
  have e3 : (positions data.shape).any (fun q => (data.val q).isNone) = (positions data'.shape).any (fun q => (data'.val q).isNone) := by
    rw [Bool.eq_iff_iff, withMask_iff, withMask_iff]
    exact hm
  unfold convolveNd at hr hr'
  split at hr
  · cases hr
  · split at hr'
    · cases hr'
    · cases hr; cases hr'
      simp only [e1, e2, e3]

/-- C78, partial: with a nonnegative kernel, the result at a point where the available data weigh more than one millionth of the kernel
depends only on the data that the kernel reaches from it. Missing: elsewhere it also depends on whether some datum is
missing anywhere (`C78_far_missing_violated`). -/
theorem C78_local_partial (data data' r r' : LArr V) (k : LArr ℚ) (hk : KNonneg k) (normalize : Bool) (hr : convolveNd data k normalize = .ok r)
    (hr' : convolveNd data' k normalize = .ok r') (hs : data.shape = data'.shape) (p : List Nat)
    (h : ∀ q, InShape data.shape q → kAt k p q ≠ 0 → data.val q = data'.val q)
    (hw : 1 / 1000000 * kSum k < availWeight data k p) : r.val p = r'.val p := by
  have hl : ∀ {d r : LArr V}, convolveNd d k normalize = .ok r → d.shape.length = k.shape.length := by
    intro d r hr
    by_contra hc
    unfold convolveNd at hr
    rw [if_pos hc] at hr
    cases hr
  obtain ⟨r1, e1, -, -, s1⟩ := convolveNd_spec data k hk (hl hr) normalize
  obtain ⟨r2, e2, -, -, s2⟩ := convolveNd_spec data' k hk (hl hr') normalize
  rw [hr] at e1; rw [hr'] at e2
  cases e1; cases e2
  have a1 : availWeight data k p = availWeight data' k p := by
    unfold availWeight
    rw [← hs]
    congr 1
    apply List.map_congr_left
    intro q hq
    by_cases h0 : kAt k p q = 0
    · rw [h0]; cases data.val q <;> cases data'.val q <;> simp
    · rw [h q ((mem_positions _ _).1 hq) h0]
  have a2 : availSum data k p = availSum data' k p := by
    unfold availSum
    rw [← hs]
    congr 1
    apply List.map_congr_left
    intro q hq
    by_cases h0 : kAt k p q = 0
    · rw [h0]; cases data.val q <;> cases data'.val q <;> simp
    · rw [h q ((mem_positions _ _).1 hq) h0]
  rw [(s1 p).2 (fun h => absurd h.2 (not_le.2 hw)), (s2 p).2 (fun h => absurd h.2 (not_le.2 (a1 ▸ hw))), a1, a2]

/-- C78 is false in general: the kernel reaches no datum from the last point; its result changes from 0 to a missing value when a datum
far from it becomes missing. -/
theorem C78_far_missing_violated :
    KNonneg (fKer [1, 0, 0]) ∧ kAt (fKer [1, 0, 0]) [3] [1] = 0 ∧
    fVals (convolveNd (fData [some 1, some 2, some 3, some 4]) (fKer [1, 0, 0]) false) = some [some 2, some 3, some 4, some 0] ∧
    fVals (convolveNd (fData [some 1, none, some 3, some 4]) (fKer [1, 0, 0]) false) = some [none, some 3, some 4, none] :=
  ⟨fKer_nonneg _ (by decide), by decide +kernel, by decide +kernel, by decide +kernel⟩

/-- C78: a datum that the kernel does not reach can become missing without effect, at the points that the kernel gives enough weight -/
theorem C78_unreached (data r r' : LArr V) (k : LArr ℚ) (hk : KNonneg k) (normalize : Bool) (p q0 : List Nat) (h0 : kAt k p q0 = 0)
    (hr : convolveNd data k normalize = .ok r)
    (hr' : convolveNd ⟨data.dims, data.shape, fun q => if q = q0 then none else data.val q⟩ k normalize = .ok r')
    (hw : 1 / 1000000 * kSum k < availWeight data k p) : r.val p = r'.val p := by
  refine C78_local_partial data _ r r' k hk normalize hr hr' rfl p ?_ hw
  intro q _ hq
  have : q ≠ q0 := by rintro rfl; exact hq h0
  simp [this]

end Xoa
