import Verif.FilterApprox
import Verif.ErodeProps

namespace Xoa

/-! ## specification -/

/-- `cv` computes the sums of products up to `δ` times the sum of the weights times the largest absolute value of the data. This is how the error of
a Fourier transform behaves: it does not depend on the values around the point, but on all of them. -/
def Convolver.Within (cv : Convolver) (δ : ℚ) : Prop :=
  ∀ (shape : List Nat) (f : List Nat → ℚ) (k : LArr ℚ) (M : ℚ) (p : List Nat), KNonneg k → InShape shape p → 0 ≤ M →
    (∀ q, InShape shape q → |f q| ≤ M) → |cv shape f k p - conv shape f k p| ≤ δ * (kSum k * M)

/-- the valid data are between `-M` and `M` -/
def Bounded (data : LArr V) (M : ℚ) : Prop := ∀ q v, InShape data.shape q → data.val q = some v → |v| ≤ M

/-- the exact sums are within 0 -/
theorem conv_within : Convolver.Within conv 0 := by
  intro shape f k M p _ _ _ _
  simp

/-- with the exact sums this is the model of `Filter` -/
theorem convolveNdA_exact (data : LArr V) (k : LArr ℚ) (normalize : Bool) : convolveNdA conv data k normalize = convolveNd data k normalize := rfl

/-! ## the two convolutions -/

theorem clip_close (w W K ε : ℚ) (h0 : 0 ≤ W) (hK : W ≤ K) (h : |w - W| ≤ ε) : |min (max w 0) K - W| ≤ ε := by
  obtain ⟨h1, h2⟩ := abs_le.1 h
  rw [abs_le]
  constructor
  · have : W - ε ≤ min (max w 0) K := le_min (le_trans (by linarith) (le_max_left w 0)) (by
      have := abs_nonneg (w - W)
      linarith)
    linarith
  · have : max w 0 ≤ W + ε := max_le (by linarith) (by have := abs_nonneg (w - W); linarith)
    have := le_trans (min_le_left (max w 0) K) this
    linarith

/-- what `_convolve_` gives at a point, from the two numbers that `cv` gives -/
theorem convolveNdA_spec (cv : Convolver) (δ : ℚ) (hcv : cv.Within δ) (data r : LArr V) (k : LArr ℚ) (hk : KNonneg k) (normalize : Bool)
    (hr : convolveNdA cv data k normalize = .ok r) (M : ℚ) (hM : 0 ≤ M) (hb : Bounded data M) :
    r.dims = data.dims ∧ r.shape = data.shape ∧ ∀ p, InShape data.shape p → ∃ s w : ℚ,
      |s - availSum data k p| ≤ δ * (kSum k * M) ∧ |w - availWeight data k p| ≤ δ * kSum k ∧ 0 ≤ w ∧
      (HasMissing data → w ≤ 1 / 1000000 * kSum k → r.val p = none) ∧
      (¬ (HasMissing data ∧ w ≤ 1 / 1000000 * kSum k) → r.val p = if normalize then V.div (some s) (some w) else some s) := by
  unfold convolveNdA at hr
  split at hr
  · cases hr
  · cases hr
    refine ⟨rfl, rfl, ?_⟩
    intro p hp
    have h1 := hcv data.shape (fun q => (data.val q).getD 0) k M p hk hp hM (by
      intro q hq
      cases hv : data.val q with
      | none => simpa using hM
      | some v => simpa using hb q v hq hv)
    have h2 := hcv data.shape (fun q => if (data.val q).isNone then 0 else 1) k 1 p hk hp zero_le_one (by
      intro q _
      split <;> simp)
    rw [conv_filled] at h1
    rw [conv_valid, mul_one] at h2
    have hK : 0 ≤ kSum k := kSum_nonneg k hk
    have h3 : 0 ≤ min (max (cv data.shape (fun q => if (data.val q).isNone then 0 else 1) k p) 0) (kSum k) :=
      le_min (le_max_right _ _) hK
    refine ⟨_, _, h1, clip_close _ _ _ _ (availWeight_nonneg data k hk p) (availWeight_le data k hk p) h2, h3, ?_, ?_⟩
    · intro hm hw
      dsimp only
      rw [if_pos]
      rw [Bool.and_eq_true, decide_eq_true_eq, withMask_iff data, abs_of_nonneg h3]
      exact ⟨hm, hw⟩
    · intro h
      dsimp only
      rw [if_neg]
      rw [Bool.and_eq_true, decide_eq_true_eq, withMask_iff data, abs_of_nonneg h3]
      exact h

theorem quot_close (s w S W a b M : ℚ) (hs : |s - S| ≤ a * M) (hw : |w - W| ≤ a) (hw0 : 0 < w) (hW0 : 0 < W) (hS : |S| ≤ M * W) (hb : 0 < b) (hbw : b ≤ w)
    (ha : 0 ≤ a) (hM : 0 ≤ M) : |s / w - S / W| ≤ 2 * a * M / b := by
  have e : s / w - S / W = ((s - S) - S / W * (w - W)) / w := by
    field_simp
    ring
  have hA : |S / W| ≤ M := by
    rw [abs_div, abs_of_pos hW0, div_le_iff₀ hW0]
    exact hS
  rw [e, abs_div, abs_of_pos hw0]
  have h1 : |(s - S) - S / W * (w - W)| ≤ 2 * a * M := by
    refine le_trans (abs_sub _ _) ?_
    rw [abs_mul]
    have := mul_le_mul hA hw (abs_nonneg _) hM
    linarith
  calc |(s - S) - S / W * (w - W)| / w ≤ 2 * a * M / w := by gcongr
    _ ≤ 2 * a * M / b := by
        have : 0 ≤ 2 * a * M := by positivity
        gcongr

theorem availSum_abs (data : LArr V) (k : LArr ℚ) (hk : KNonneg k) (p : List Nat) (M : ℚ) (hb : Bounded data M) :
    |availSum data k p| ≤ M * availWeight data k p := by
  obtain ⟨h1, h2⟩ := mean_bounds data k hk p (-M) M (fun q v hq hv _ => abs_le.1 (hb q v hq hv))
  rw [abs_le]
  constructor
  · linarith
  · exact h2

/-! ## C206 -/

/-- C206, convolution that is not normalised: wherever the result is not missing it is within `δ` times the sum of the weights times the largest
datum of the sum of the available data weighted by the kernel. Complete data give complete results. -/
theorem C206_plain (cv : Convolver) (δ : ℚ) (hcv : cv.Within δ) (data r : LArr V) (k : LArr ℚ) (hk : KNonneg k)
    (hr : convolveNdA cv data k false = .ok r) (M : ℚ) (hM : 0 ≤ M) (hb : Bounded data M) :
    r.dims = data.dims ∧ r.shape = data.shape ∧ ∀ p, InShape data.shape p →
      (¬ HasMissing data → r.val p ≠ none) ∧ ∀ x, r.val p = some x → |x - availSum data k p| ≤ δ * (kSum k * M) := by
  obtain ⟨h1, h2, h3⟩ := convolveNdA_spec cv δ hcv data r k hk false hr M hM hb
  refine ⟨h1, h2, ?_⟩
  intro p hp
  obtain ⟨s, w, hs, hw, hw0, a, b⟩ := h3 p hp
  constructor
  · intro hm
    rw [b (fun h => hm h.1)]
    simp
  · intro x hx
    by_cases hc : HasMissing data ∧ w ≤ 1 / 1000000 * kSum k
    · rw [a hc.1 hc.2] at hx
      cases hx
    · rw [b hc] at hx
      simp only [Bool.false_eq_true, if_false, Option.some.injEq] at hx
      rw [← hx]
      exact hs

/-- C206, which results are missing, for data with missing values, normalised or not: those where the weight of the available data is less than a
millionth of the sum of the weights, but for a margin of `δ` around it. In particular a point that the kernel joins to no valid datum is missing
as soon as `δ` is at most a millionth. -/
theorem C206_missing_partial (cv : Convolver) (δ : ℚ) (hcv : cv.Within δ) (data r : LArr V) (k : LArr ℚ) (hk : KNonneg k) (hK : 0 < kSum k) (normalize : Bool)
    (hr : convolveNdA cv data k normalize = .ok r) (hm : HasMissing data) (p : List Nat) (hp : InShape data.shape p) :
    (availWeight data k p ≤ (1 / 1000000 - δ) * kSum k → r.val p = none) ∧
    ((1 / 1000000 + δ) * kSum k < availWeight data k p → r.val p ≠ none) ∧
    (δ ≤ 1 / 1000000 → (¬ ∃ q, Available data k p q) → r.val p = none) := by
  obtain ⟨M, hM, hb⟩ : ∃ M : ℚ, 0 ≤ M ∧ Bounded data M := by
    refine ⟨((positions data.shape).map (fun q => |(data.val q).getD 0|)).sum, ?_, ?_⟩
    · refine List.sum_nonneg ?_
      intro x hx
      obtain ⟨q, _, rfl⟩ := List.mem_map.1 hx
      exact abs_nonneg _
    · intro q v hq hv
      refine List.single_le_sum ?_ _ (List.mem_map.2 ⟨q, (mem_positions _ _).2 hq, by rw [hv]; rfl⟩)
      intro x hx
      obtain ⟨q, _, rfl⟩ := List.mem_map.1 hx
      exact abs_nonneg _
  obtain ⟨h1, h2, h3⟩ := convolveNdA_spec cv δ hcv data r k hk normalize hr M hM hb
  obtain ⟨s, w, hs, hw, hw0, a, b⟩ := h3 p hp
  obtain ⟨g1, g2⟩ := abs_le.1 hw
  have c1 : availWeight data k p ≤ (1 / 1000000 - δ) * kSum k → r.val p = none := by
    intro h
    refine a hm ?_
    have : (1 / 1000000 - δ) * kSum k = 1 / 1000000 * kSum k - δ * kSum k := by ring
    linarith
  refine ⟨c1, ?_, ?_⟩
  · intro h
    have e : (1 / 1000000 + δ) * kSum k = 1 / 1000000 * kSum k + δ * kSum k := by ring
    have hw' : 1 / 1000000 * kSum k < w := by linarith
    rw [b (fun h => absurd h.2 (not_le.2 hw'))]
    have : w ≠ 0 := by
      intro h0
      have : 0 < 1 / 1000000 * kSum k := by positivity
      linarith
    cases normalize
    · simp
    · simp [V.div, this]
  · intro hδ hn
    refine c1 ?_
    have h0 : ¬ 0 < availWeight data k p := fun h => hn ((availWeight_pos_iff data k hk p).1 h)
    have : 0 ≤ (1 / 1000000 - δ) * kSum k := mul_nonneg (by linarith) hK.le
    linarith

/-- C206, normalised convolution: where the weight of the available data is more than the error of the weights, a result that is not missing is close
to the mean of the available data weighted by the kernel, and the closer the larger their weight. -/
theorem C206_mean (cv : Convolver) (δ : ℚ) (hδ : 0 ≤ δ) (hcv : cv.Within δ) (data r : LArr V) (k : LArr ℚ) (hk : KNonneg k)
    (hr : convolveNdA cv data k true = .ok r) (M : ℚ) (hM : 0 ≤ M) (hb : Bounded data M) (p : List Nat) (hp : InShape data.shape p)
    (hW : δ * kSum k < availWeight data k p) (x : ℚ) (hx : r.val p = some x) :
    |x - availSum data k p / availWeight data k p| ≤ 2 * (δ * kSum k) * M / (availWeight data k p - δ * kSum k) := by
  obtain ⟨h1, h2, h3⟩ := convolveNdA_spec cv δ hcv data r k hk true hr M hM hb
  obtain ⟨s, w, hs, hw, hw0, a, b⟩ := h3 p hp
  have hK := kSum_nonneg k hk
  have hd : 0 ≤ δ * kSum k := mul_nonneg hδ hK
  obtain ⟨g1, g2⟩ := abs_le.1 hw
  have hw1 : 0 < w := by linarith
  by_cases hc : HasMissing data ∧ w ≤ 1 / 1000000 * kSum k
  · rw [a hc.1 hc.2] at hx
    cases hx
  · rw [b hc] at hx
    simp only [if_true, V.div, hw1.ne', if_false, Option.some.injEq] at hx
    rw [← hx]
    refine quot_close s w _ _ (δ * kSum k) _ M ?_ hw hw1 (by linarith) (availSum_abs data k hk p M hb) (by linarith) (by linarith) hd hM
    rw [mul_assoc]
    exact hs

/-- C206, normalised convolution of data with missing values: a result that is not missing is the mean of the available data weighted by the kernel up
to two million times `δ` times the largest datum, and there is at least one available datum. -/
theorem C206_mean_missing (cv : Convolver) (δ : ℚ) (hδ : 0 ≤ δ) (hδ1 : δ ≤ 1 / 1000000) (hcv : cv.Within δ) (data r : LArr V) (k : LArr ℚ) (hk : KNonneg k)
    (hK : 0 < kSum k) (hr : convolveNdA cv data k true = .ok r) (M : ℚ) (hM : 0 ≤ M) (hb : Bounded data M) (hm : HasMissing data) (p : List Nat)
    (hp : InShape data.shape p) (x : ℚ) (hx : r.val p = some x) :
    (∃ q, Available data k p q) ∧ |x - availSum data k p / availWeight data k p| ≤ 2000000 * δ * M := by
  have hq : ∃ q, Available data k p q := by
    by_contra hn
    rw [(C206_missing_partial cv δ hcv data r k hk hK true hr hm p hp).2.2 hδ1 hn] at hx
    cases hx
  refine ⟨hq, ?_⟩
  obtain ⟨h1, h2, h3⟩ := convolveNdA_spec cv δ hcv data r k hk true hr M hM hb
  obtain ⟨s, w, hs, hw, hw0, a, b⟩ := h3 p hp
  by_cases hc : w ≤ 1 / 1000000 * kSum k
  · rw [a hm hc] at hx
    cases hx
  · have hw1 : 1 / 1000000 * kSum k < w := not_le.1 hc
    have hp1 : 0 < 1 / 1000000 * kSum k := by positivity
    rw [b (fun h => hc h.2)] at hx
    have hw2 : 0 < w := by linarith
    simp only [if_true, V.div, hw2.ne', if_false, Option.some.injEq] at hx
    rw [← hx]
    refine le_trans (quot_close s w _ _ (δ * kSum k) (1 / 1000000 * kSum k) M ?_ hw hw2 ((availWeight_pos_iff data k hk p).2 hq)
      (availSum_abs data k hk p M hb) hp1 hw1.le (mul_nonneg hδ hK.le) hM) ?_
    · rw [mul_assoc]
      exact hs
    · refine le_of_eq ?_
      field_simp
      ring

/-- C206: where all the weights of the kernel are used the error is at most `2 δ M / (1 - δ)`. -/
theorem C206_full (cv : Convolver) (δ : ℚ) (hδ : 0 ≤ δ) (hδ1 : δ < 1) (hcv : cv.Within δ) (data r : LArr V) (k : LArr ℚ) (hk : KNonneg k)
    (hK : 0 < kSum k) (hr : convolveNdA cv data k true = .ok r) (M : ℚ) (hM : 0 ≤ M) (hb : Bounded data M) (p : List Nat) (hp : InShape data.shape p)
    (hW : availWeight data k p = kSum k) (x : ℚ) (hx : r.val p = some x) :
    |x - availSum data k p / kSum k| ≤ 2 * δ * M / (1 - δ) := by
  have h := C206_mean cv δ hδ hcv data r k hk hr M hM hb p hp (by rw [hW]; nlinarith) x hx
  rw [hW] at h
  refine le_trans h (le_of_eq ?_)
  have h1 : (1 - δ) ≠ 0 := by linarith
  have h2 : kSum k - δ * kSum k ≠ 0 := by
    rw [show kSum k - δ * kSum k = (1 - δ) * kSum k by ring]
    exact mul_ne_zero h1 hK.ne'
  rw [div_eq_div_iff h2 h1]
  ring

/-- a convolver that is right but at the point `p` of arrays of the shape `shape0`, where it is wrong by the value at `q0` times `δ` -/
def leaky (δ : ℚ) (shape0 p0 q0 : List Nat) : Convolver := fun shape f k p =>
  conv shape f k p + if shape = shape0 ∧ p = p0 then δ * (kSum k * f q0) else 0

theorem leaky_within (δ : ℚ) (hδ : 0 ≤ δ) (shape0 p0 q0 : List Nat) (hq : InShape shape0 q0) : (leaky δ shape0 p0 q0).Within δ := by
  intro shape f k M p hk _ hM hf
  unfold leaky
  rw [add_sub_cancel_left]
  have hK := kSum_nonneg k hk
  split
  · rename_i h
    rw [abs_mul, abs_of_nonneg hδ, abs_mul, abs_of_nonneg hK]
    have := hf q0 (by rw [h.1]; exact hq)
    gcongr
  · rw [abs_zero]
    positivity

/-- C206 is false of complete data at the points where the kernel reaches no datum: the exact result is missing there (`C22_missing_complete`), but
however small the error `δ`, the code may give any datum of the array, wherever it is: it divides an error by an error. -/
theorem C206_unreached_violated (δ : ℚ) (hδ : 0 < δ) (hδ1 : δ ≤ 1) (data : LArr V) (k : LArr ℚ) (hk : KNonneg k) (hK : 0 < kSum k)
    (hl : data.shape.length = k.shape.length) (hm : ¬ HasMissing data) (p q : List Nat) (hq : InShape data.shape q)
    (hn : ¬ ∃ q, Available data k p q) :
    (∃ r, convolveNd data k true = .ok r ∧ r.val p = none) ∧
    ∃ cv : Convolver, cv.Within δ ∧ ∃ r, convolveNdA cv data k true = .ok r ∧ r.val p = data.val q := by
  constructor
  · obtain ⟨r, hr, -⟩ := convolveNd_spec data k hk hl true
    exact ⟨r, hr, (C22_missing_complete data r k hk hr hm p).2 hn⟩
  · refine ⟨leaky δ data.shape p q, leaky_within δ hδ.le _ _ _ hq, ?_⟩
    have hv : ∃ v, data.val q = some v := by
      cases h : data.val q with
      | none => exact absurd ⟨q, hq, h⟩ hm
      | some v => exact ⟨v, rfl⟩
    obtain ⟨v, hv⟩ := hv
    unfold convolveNdA
    rw [if_neg (by simpa using hl)]
    refine ⟨_, rfl, ?_⟩
    dsimp only
    have hW0 : availWeight data k p = 0 := by
      have h0 : ¬ 0 < availWeight data k p := fun h => hn ((availWeight_pos_iff data k hk p).1 h)
      have := availWeight_nonneg data k hk p
      linarith
    have hS0 : availSum data k p = 0 := by
      have := mean_bounds data k hk p 0 0 (fun q v h1 h2 h3 => absurd ⟨q, h1, ⟨v, h2⟩, h3⟩ hn)
      rw [hW0] at this
      linarith [this.1, this.2]
    have hwm : ((positions data.shape).any (fun q => (data.val q).isNone)) = false := by
      rw [Bool.eq_false_iff]
      exact fun h => hm ((withMask_iff data).1 h)
    have e1 : leaky δ data.shape p q data.shape (fun q => (data.val q).getD 0) k p = δ * (kSum k * v) := by
      unfold leaky
      rw [conv_filled, hS0, if_pos ⟨rfl, rfl⟩]
      simp [hv]
    have e2 : leaky δ data.shape p q data.shape (fun q => if (data.val q).isNone then 0 else 1) k p = δ * kSum k := by
      unfold leaky
      rw [conv_valid, hW0, if_pos ⟨rfl, rfl⟩]
      simp [hv]
    have hp : 0 < δ * kSum k := mul_pos hδ hK
    rw [if_neg (by rw [hwm, Bool.false_and]; exact Bool.false_ne_true), if_pos rfl, e1, e2, max_eq_left hp.le, min_eq_left (by nlinarith), hv]
    simp only [V.div, hp.ne', if_false, Option.some.injEq]
    field_simp

/-! ## erosion -/

theorem fillA_ok (cv : Convolver) (data : LArr V) (k : LArr ℚ) (h : Fits data k) :
    ∃ k' c d, convolveNdA cv data k' true = .ok c ∧ convolveFillA cv data k = .ok d ∧ d.dims = data.dims ∧ d.shape = data.shape ∧
      (∀ p, d.val p = (data.val p).orElse (fun _ => c.val p)) ∧ (∀ p q, kAt k' p q = kAt k p q) ∧ kSum k' = kSum k ∧ (KNonneg k → KNonneg k') := by
  obtain ⟨k', h1, ht⟩ := generateKernel_da onesWindow 0 k h.kok data.dims h.dok.nodup (by rw [h.dims]; exact fun _ h => h)
  have hd : k'.dims = k.dims := by rw [ht.dims, h.dims]
  have hs : k'.shape = k.shape := by
    rw [shape_eq k' ht.ok, shape_eq k h.kok, hd]
    apply List.map_congr_left
    intro d hd'
    exact (ht.sizes d hd').2
  have hv : ∀ j, InShape k.shape j → k'.val j = k.val j := by
    intro j hj
    have hl : j.length = k.dims.length := by rw [inShape_length _ _ hj, h.kok.len]
    have := ht.vals (look k.dims j)
    unfold LArr.at at this
    rw [hd, map_look k.dims j h.kok.nodup hl] at this
    exact this
  have hc : ∃ c, convolveNdA cv data k' true = .ok c := by
    unfold convolveNdA
    rw [if_neg (by rw [hs]; simpa using fits_length h)]
    exact ⟨_, rfl⟩
  obtain ⟨c, hc⟩ := hc
  refine ⟨k', c, ⟨data.dims, data.shape, fun p => (data.val p).orElse (fun _ => c.val p)⟩, hc, ?_, rfl, rfl, fun _ => rfl, ?_, ?_, ?_⟩
  · unfold convolveFillA convolveA
    rw [h1]
    show (convolveNdA cv data k' true).bind _ = _
    rw [hc]
    rfl
  · intro p q
    unfold kAt
    rw [hs]
    cases hj : kIdx k.shape p q with
    | none => rfl
    | some j => exact hv j (kIdx_inShape _ _ _ _ hj)
  · unfold kSum
    rw [hs]
    congr 1
    exact List.map_congr_left (fun j hj => hv j ((mem_positions _ _).1 hj))
  · intro hn j hj
    rw [hs] at hj
    rw [hv j hj]
    exact hn j hj

theorem erodeA_kept (cv : Convolver) (k : LArr ℚ) (n : Nat) : ∀ (data : LArr V), Fits data k →
    ∃ r, erodeIterA cv k n data = .ok r ∧ r.dims = data.dims ∧ r.shape = data.shape ∧ ∀ p v, data.val p = some v → r.val p = some v := by
  induction n with
  | zero => intro data _; exact ⟨data, rfl, rfl, rfl, fun _ _ h => h⟩
  | succ n ih =>
    intro data h
    obtain ⟨k', c, d, -, hd, h1, h2, h3, -⟩ := fillA_ok cv data k h
    obtain ⟨r, g1, g2, g3, g4⟩ := ih d (fill_fits h h1 h2)
    refine ⟨r, ?_, by rw [g2, h1], by rw [g3, h2], ?_⟩
    · show (convolveFillA cv data k).bind (fun d => erodeIterA cv k n d) = _
      rw [hd]
      exact g1
    · intro p v hv
      refine g4 p v ?_
      rw [h3 p, hv]
      rfl

/-- C206, erosion: whatever numbers the convolution gives, eroding keeps the layout, never changes a valid datum and never makes it missing. -/
theorem C206_erode_kept (cv : Convolver) (data : LArr V) (spec : KSpec) (k : LArr ℚ) (hk : ErodeKernel data spec k) (n : Int) :
    ∃ r, erodeMaskNA cv data n spec = .ok r ∧ r.dims = data.dims ∧ r.shape = data.shape ∧ ∀ p v, data.val p = some v → r.val p = some v := by
  obtain ⟨r, h⟩ := erodeA_kept cv k n.toNat data hk.fits
  refine ⟨r, ?_, h.2⟩
  unfold erodeMaskNA
  rw [hk.made]
  exact h.1

theorem avail_congr (data : LArr V) (k k' : LArr ℚ) (h : ∀ p q, kAt k' p q = kAt k p q) (p : List Nat) :
    availSum data k' p = availSum data k p ∧ availWeight data k' p = availWeight data k p := by
  unfold availSum availWeight
  simp only [h, and_self]

theorem erodeA_bounds (cv : Convolver) (δ : ℚ) (hδ : 0 ≤ δ) (hδ1 : δ ≤ 1 / 1000000) (hcv : cv.Within δ) (k : LArr ℚ) (hn : KNonneg k) (hK : 0 < kSum k)
    (n : Nat) : ∀ (data r : LArr V) (lo hi M : ℚ), Fits data k → erodeIterA cv k n data = .ok r → 0 ≤ M → -M ≤ lo → hi ≤ M →
    (∀ q v, InShape data.shape q → data.val q = some v → lo ≤ v ∧ v ≤ hi) →
    ∀ q v, InShape data.shape q → r.val q = some v →
      lo - M * ((1 + 2000000 * δ) ^ n - 1) ≤ v ∧ v ≤ hi + M * ((1 + 2000000 * δ) ^ n - 1) := by
  induction n with
  | zero =>
    intro data r lo hi M _ hr _ _ _ hb q v hq hv
    cases hr
    simpa using hb q v hq hv
  | succ n ih =>
    intro data r lo hi M h hr hM hlo hhi hb q v hq hv
    obtain ⟨k', c, d, hc, hd, h1, h2, h3, h4, h5, h6⟩ := fillA_ok cv data k h
    have hr' : erodeIterA cv k n d = .ok r := by
      have : erodeIterA cv k (n + 1) data = (convolveFillA cv data k).bind (fun d => erodeIterA cv k n d) := rfl
      rw [this, hd] at hr
      exact hr
    have hη : 0 ≤ 2000000 * δ * M := by positivity
    have key : ∀ q v, InShape d.shape q → d.val q = some v → lo - 2000000 * δ * M ≤ v ∧ v ≤ hi + 2000000 * δ * M := by
      intro q v hq hv
      rw [h2] at hq
      cases h0 : data.val q with
      | some w =>
        rw [h3 q, h0] at hv
        cases hv
        have := hb q v hq h0
        constructor <;> linarith
      | none =>
        rw [h3 q, h0] at hv
        have hb' : Bounded data M := by
          intro q v hq hv
          have := hb q v hq hv
          exact abs_le.2 ⟨by linarith, by linarith⟩
        obtain ⟨⟨q', ha⟩, hx⟩ := C206_mean_missing cv δ hδ hδ1 hcv data c k' (h6 hn) (by rw [h5]; exact hK) hc M hM hb' ⟨q, hq, h0⟩ q hq v hv
        have hp := (availWeight_pos_iff data k' (h6 hn) q).2 ⟨q', ha⟩
        obtain ⟨m1, m2⟩ := mean_bounds data k' (h6 hn) q lo hi (fun q v h1 h2 _ => hb q v h1 h2)
        have m1' : lo ≤ availSum data k' q / availWeight data k' q := by rw [le_div_iff₀ hp]; exact m1
        have m2' : availSum data k' q / availWeight data k' q ≤ hi := by rw [div_le_iff₀ hp]; exact m2
        obtain ⟨x1, x2⟩ := abs_le.1 hx
        constructor <;> linarith
    have hq' : InShape d.shape q := by rw [h2]; exact hq
    have := ih d r (lo - 2000000 * δ * M) (hi + 2000000 * δ * M) (M + 2000000 * δ * M) (fill_fits h h1 h2) hr' (by linarith) (by linarith) (by linarith)
      key q v hq' hv
    have e : (M + 2000000 * δ * M) * ((1 + 2000000 * δ) ^ n - 1) + 2000000 * δ * M = M * ((1 + 2000000 * δ) ^ (n + 1) - 1) := by ring
    constructor <;> linarith [this.1, this.2]

/-- C206, erosion: after `n` turns the values stay between the extrema of the data but for a margin that only `δ` and `n` decide, relative to the
largest absolute value `M` of the data. -/
theorem C206_erode_bounds (cv : Convolver) (δ : ℚ) (hδ : 0 ≤ δ) (hδ1 : δ ≤ 1 / 1000000) (hcv : cv.Within δ) (data r : LArr V) (spec : KSpec)
    (k : LArr ℚ) (hk : ErodeKernel data spec k) (hn : KNonneg k) (hK : 0 < kSum k) (n : Nat) (hr : erodeMaskNA cv data n spec = .ok r)
    (lo hi M : ℚ) (hM : 0 ≤ M) (hlo : -M ≤ lo) (hhi : hi ≤ M) (hb : ∀ q v, InShape data.shape q → data.val q = some v → lo ≤ v ∧ v ≤ hi) :
    ∀ q v, InShape data.shape q → r.val q = some v →
      lo - M * ((1 + 2000000 * δ) ^ n - 1) ≤ v ∧ v ≤ hi + M * ((1 + 2000000 * δ) ^ n - 1) := by
  unfold erodeMaskNA at hr
  rw [hk.made] at hr
  exact erodeA_bounds cv δ hδ hδ1 hcv k hn hK n data r lo hi M hk.fits hr hM hlo hhi hb

/-! ## non-vacuity -/

/-- a constant with a gap at the end, and a kernel that sees only one side -/
def apxData : LArr V := ⟨["x"], [4], fun p => [some 5, some 5, some 5, none].getD (p.getD 0 0) none⟩
def apxFull : LArr V := ⟨["x"], [4], fun p => [some 5, some 6, some 7, some 8].getD (p.getD 0 0) none⟩
def apxKernel : LArr ℚ := ⟨["x"], [3], fun p => [1, 0, 0].getD (p.getD 0 0) 0⟩

/-- a convolver with an error at one point -/
def apxCv : Convolver := leaky (1 / 10000000000) [4] [3] [0]

example : apxCv.Within (1 / 10000000000) := leaky_within _ (by norm_num) _ _ _ ((mem_positions _ _).1 (by decide))
example : ((convolveNdA conv apxFull apxKernel true).toOption.map (fun r => (positions r.shape).map r.val)) = some [some 6, some 7, some 8, none] := by
  decide +kernel
example : ((convolveNdA apxCv apxFull apxKernel true).toOption.map (fun r => (positions r.shape).map r.val)) = some [some 6, some 7, some 8, some 5] := by
  decide +kernel
example : ((convolveNdA apxCv apxData apxKernel true).toOption.map (fun r => (positions r.shape).map r.val)) = some [some 5, some 5, none, none] := by
  decide +kernel
example : KNonneg apxKernel ∧ kSum apxKernel = 1 := by
  refine ⟨?_, by decide +kernel⟩
  intro j hj
  have : j ∈ positions [3] := (mem_positions _ _).2 hj
  obtain ⟨a, ha, rfl⟩ : ∃ a < 3, j = [a] := by simpa [positions] using this
  rcases (by omega : a = 0 ∨ a = 1 ∨ a = 2) with rfl | rfl | rfl <;> decide +kernel

/-- two dimensions, with gaps -/
def apxData2 : LArr V := ⟨["y", "x"], [2, 3], fun p => ([[some 1, none, none], [none, none, some 9]].getD (p.getD 0 0) []).getD (p.getD 1 0) none⟩

example : ((erodeMaskNA (leaky (1 / 10000000) [2, 3] [0, 1] [1, 2]) apxData2 1 (.da (shapiroKernel ["y", "x"]))).toOption.map
    (fun r => (positions r.shape).map r.val)) = some [some 1, some (10000054 / 10000006), some 9, some 1, some 9, some 9] := by decide +kernel

end Xoa
