import Verif.FilterSepProps

/-!
# C224: filtering a part of the data

No new model. A part of an array (consecutive positions along each dimension, `isel` with slices) is filtered by `convolve` (xoa/filter.py:466-552).
-/

namespace Xoa

/-- position in the whole array of the position `p` of the part that starts at `s` -/
def addIdx (p s : List Nat) : List Nat := List.zipWith (· + ·) p s

/-- `sub` is the part of `data` that starts at `s`: `data.isel(dim=slice(start, stop), ...)` -/
structure PartOf (data sub : LArr V) (s : List Nat) : Prop where
  dims : sub.dims = data.dims
  len : s.length = data.shape.length
  slen : sub.shape.length = data.shape.length
  inside : ∀ q, InShape sub.shape q → InShape data.shape (addIdx q s)
  val : ∀ q, InShape sub.shape q → sub.val q = data.val (addIdx q s)

/-- the position `p` of the part is further from the cuts than the reach of the kernel: along each dimension, the part starts with the data, or there are
`size // 2` points before, and it ends with the data, or there are `(size - 1) // 2` points after -/
def FarFromCuts : (ks ns ms s p : List Nat) → Prop
  | k :: ks, n :: ns, m :: ms, a :: s, p :: ps =>
    (a = 0 ∨ k / 2 ≤ p) ∧ (a + m = n ∨ p + (k - 1) / 2 < m) ∧ FarFromCuts ks ns ms s ps
  | [], [], [], [], [] => True
  | _, _, _, _, _ => False

theorem addIdx_inj (s p q : List Nat) (hp : p.length = s.length) (hq : q.length = s.length) (h : addIdx p s = addIdx q s) : p = q := by
  induction s generalizing p q with
  | nil => rw [List.length_eq_zero_iff.1 hp, List.length_eq_zero_iff.1 hq]
  | cons a s ih =>
    cases p with
    | nil => simp at hp
    | cons x p => cases q with
      | nil => simp at hq
      | cons y q =>
        simp only [addIdx, List.zipWith_cons_cons, List.cons.injEq] at h
        rw [ih p q (by simpa using hp) (by simpa using hq) h.2]
        congr 1
        omega

theorem kIdx_shift (ks p q s : List Nat) (hp : p.length = s.length) (hq : q.length = s.length) : kIdx ks (addIdx p s) (addIdx q s) = kIdx ks p q := by
  induction s generalizing ks p q with
  | nil => rw [List.length_eq_zero_iff.1 hp, List.length_eq_zero_iff.1 hq]; rfl
  | cons a s ih =>
    cases p with
    | nil => simp at hp
    | cons x p => cases q with
      | nil => simp at hq
      | cons y q =>
        cases ks with
        | nil => rfl
        | cons k ks =>
          show kIdx (k :: ks) ((x + a) :: addIdx p s) ((y + a) :: addIdx q s) = _
          simp only [kIdx]
          rw [ih ks p q (by simpa using hp) (by simpa using hq)]
          have e : x + a + (k - 1) / 2 - (y + a) = x + (k - 1) / 2 - y := by omega
          rw [e]
          by_cases h : y ≤ x + (k - 1) / 2 ∧ x + (k - 1) / 2 - y < k
          · rw [if_pos h, if_pos ⟨by omega, h.2⟩]
          · rw [if_neg h, if_neg (by omega)]

theorem kAt_shift (k : LArr ℚ) (p q s : List Nat) (hp : p.length = s.length) (hq : q.length = s.length) : kAt k (addIdx p s) (addIdx q s) = kAt k p q := by
  unfold kAt; rw [kIdx_shift _ _ _ _ hp hq]

/-- the data that the kernel reaches are in the part -/
theorem reached_in_part (ks ns ms s p q : List Nat) (hf : FarFromCuts ks ns ms s p) (hp : InShape ms p) (hq : InShape ns q) (h : kIdx ks (addIdx p s) q ≠ none) :
    ∃ q', InShape ms q' ∧ q = addIdx q' s := by
  induction ks generalizing ns ms s p q with
  | nil =>
    cases ns <;> cases ms <;> cases s <;> cases p <;> simp_all [FarFromCuts]
    cases q <;> simp_all [InShape]
    exact ⟨[], trivial, rfl⟩
  | cons k ks ih =>
    cases ns with
    | nil => cases ms <;> cases s <;> cases p <;> simp [FarFromCuts] at hf
    | cons n ns => cases ms with
      | nil => cases s <;> cases p <;> simp [FarFromCuts] at hf
      | cons m ms => cases s with
        | nil => cases p <;> simp [FarFromCuts] at hf
        | cons a s => cases p with
          | nil => simp [FarFromCuts] at hf
          | cons x p => cases q with
            | nil => simp [InShape] at hq
            | cons y q =>
              obtain ⟨f1, f2, f3⟩ := hf
              change kIdx (k :: ks) ((x + a) :: addIdx p s) (y :: q) ≠ none at h
              simp only [kIdx] at h
              split at h
              · rename_i hc
                have h' : kIdx ks (addIdx p s) q ≠ none := by
                  intro e; rw [e] at h; exact h rfl
                obtain ⟨q', h1, h2⟩ := ih ns ms s p q f3 hp.2 hq.2 h'
                have hx := hp.1
                have hy := hq.1
                refine ⟨(y - a) :: q', ⟨by omega, h1⟩, ?_⟩
                rw [h2]
                show _ = (y - a + a) :: addIdx q' s
                congr 1
                omega
              · exact absurd rfl h

theorem inShape_addIdx_len {ms p s ns : List Nat} (hp : InShape ms p) (h1 : ms.length = ns.length) (h2 : s.length = ns.length) : p.length = s.length := by
  rw [inShape_length _ _ hp]; omega

/-- a sum over the data is the sum over the part, when the terms out of the part are null -/
theorem sum_part {data sub : LArr V} {s : List Nat} (h : PartOf data sub s) (g : List Nat → ℚ)
    (h0 : ∀ q, InShape data.shape q → g q ≠ 0 → ∃ q', InShape sub.shape q' ∧ q = addIdx q' s) :
    ((positions data.shape).map g).sum = ((positions sub.shape).map (fun q' => g (addIdx q' s))).sum := by
  rw [← List.sum_toFinset g (positions_nodup _), ← List.sum_toFinset (fun q' => g (addIdx q' s)) (positions_nodup _)]
  have hinj : Set.InjOn (fun q' => addIdx q' s) ((positions sub.shape).toFinset : Set (List Nat)) := by
    intro a ha b hb hab
    simp only [List.coe_toFinset, Set.mem_ofPred_eq, mem_positions] at ha hb
    exact addIdx_inj s a b (inShape_addIdx_len ha h.slen h.len) (inShape_addIdx_len hb h.slen h.len) hab
  rw [← Finset.sum_image (f := g) hinj]
  symm
  refine Finset.sum_subset ?_ ?_
  · intro x hx
    simp only [Finset.mem_image, List.mem_toFinset, mem_positions] at hx ⊢
    obtain ⟨q', hq', rfl⟩ := hx
    exact h.inside q' hq'
  · intro x hx hn
    simp only [Finset.mem_image, List.mem_toFinset, mem_positions] at hx hn
    by_contra hg
    obtain ⟨q', h1, h2⟩ := h0 x hx hg
    exact hn ⟨q', h1, h2.symm⟩

theorem conv_part {data sub : LArr V} {s : List Nat} (h : PartOf data sub s) (k : LArr ℚ) (p : List Nat) (hp : InShape sub.shape p)
    (hf : FarFromCuts k.shape data.shape sub.shape s p) (f g : List Nat → ℚ) (hfg : ∀ q, InShape sub.shape q → g q = f (addIdx q s)) :
    conv sub.shape g k p = conv data.shape f k (addIdx p s) := by
  unfold conv
  rw [sum_part h (fun q => kAt k (addIdx p s) q * f q)]
  · congr 1
    refine List.map_congr_left fun q hq => ?_
    have hq' := (mem_positions _ _).1 hq
    rw [kAt_shift k p q s (inShape_addIdx_len hp h.slen h.len) (inShape_addIdx_len hq' h.slen h.len), hfg q hq']
  · intro q hq hne
    refine reached_in_part _ _ _ _ _ _ hf hp hq fun hnone => hne ?_
    unfold kAt; rw [hnone]; simp

/-- **C224.** Filtering a part of the data gives the part of the filtered data, normalised or not, at the points that are further from the cuts than the reach of the kernel, when data are
missing in the part and out of it, or in none of them. -/
theorem C224_part (data sub : LArr V) (s : List Nat) (h : PartOf data sub s) (spec : KSpec) (k : LArr ℚ) (hk : generateKernel onesWindow 0 spec data.dims = .ok k)
    (normalize : Bool) (r r' : LArr V) (hr : convolve data spec normalize = .ok r) (hr' : convolve sub spec normalize = .ok r')
    (hm : HasMissing data ↔ HasMissing sub) (p : List Nat) (hp : InShape sub.shape p) (hf : FarFromCuts k.shape data.shape sub.shape s p) :
    r'.val p = r.val (addIdx p s) := by
  unfold convolve at hr hr'
  rw [hk] at hr
  rw [h.dims, hk] at hr'
  change convolveNd data k normalize = .ok r at hr
  change convolveNd sub k normalize = .ok r' at hr'
  unfold convolveNd at hr hr'
  split at hr
  · cases hr
  · split at hr'
    · cases hr'
    · cases hr
      cases hr'
      dsimp only
      have e0 : (positions sub.shape).any (fun q => (sub.val q).isNone) = (positions data.shape).any (fun q => (data.val q).isNone) := by
        rw [Bool.eq_iff_iff, withMask_iff, withMask_iff]; exact hm.symm
      have e1 := conv_part h k p hp hf (fun q => (data.val q).getD 0) (fun q => (sub.val q).getD 0) (fun q hq => by rw [h.val q hq])
      have e2 := conv_part h k p hp hf (fun q => if (data.val q).isNone then 0 else 1) (fun q => if (sub.val q).isNone then 0 else 1) (fun q hq => by rw [h.val q hq])
      rw [e0, e1]
      simp only [e2]

/-- **C224, nonnegative kernels.** The same whatever the missing values elsewhere, at the points where the available data weigh more than one millionth of the kernel. -/
theorem C224_part_available (data sub : LArr V) (s : List Nat) (h : PartOf data sub s) (spec : KSpec) (k : LArr ℚ) (hk : generateKernel onesWindow 0 spec data.dims = .ok k)
    (hpos : KNonneg k) (normalize : Bool) (r r' : LArr V) (hr : convolve data spec normalize = .ok r) (hr' : convolve sub spec normalize = .ok r')
    (p : List Nat) (hp : InShape sub.shape p) (hf : FarFromCuts k.shape data.shape sub.shape s p)
    (hw : 1 / 1000000 * kSum k < availWeight data k (addIdx p s)) : r'.val p = r.val (addIdx p s) := by
  unfold convolve at hr hr'
  rw [hk] at hr
  rw [h.dims, hk] at hr'
  change convolveNd data k normalize = .ok r at hr
  change convolveNd sub k normalize = .ok r' at hr'
  have hl : data.shape.length = k.shape.length := by
    by_contra hne
    unfold convolveNd at hr
    rw [if_pos hne] at hr
    cases hr
  obtain ⟨x, x1, -, -, x4⟩ := convolveNd_spec data k hpos hl normalize
  obtain ⟨y, y1, -, -, y4⟩ := convolveNd_spec sub k hpos (by rw [h.slen]; exact hl) normalize
  rw [hr] at x1
  rw [hr'] at y1
  cases x1
  cases y1
  have e1 : availSum sub k p = availSum data k (addIdx p s) := by
    rw [← conv_filled, ← conv_filled]
    exact conv_part h k p hp hf _ _ (fun q hq => by rw [h.val q hq])
  have e2 : availWeight sub k p = availWeight data k (addIdx p s) := by
    rw [← conv_valid, ← conv_valid]
    exact conv_part h k p hp hf _ _ (fun q hq => by rw [h.val q hq])
  rw [(x4 _).2 (fun hc => absurd hc.2 (not_le.2 hw)), (y4 p).2 (fun hc => absurd hc.2 (by rw [e2]; exact not_le.2 hw)), e1, e2]

/-! ## The hypotheses on concrete data -/

theorem partData_of (w : List V) (b m : Nat) (h : b + m ≤ w.length) : PartOf (fData w) (fData ((w.drop b).take m)) [b] where
  dims := rfl
  len := rfl
  slen := rfl
  inside := by
    intro q hq
    cases q with
    | nil => simp [fData, InShape] at hq
    | cons x q => cases q with
      | nil =>
        simp only [fData, InShape, addIdx, List.zipWith_cons_cons, List.zipWith_nil_left, List.length_take, List.length_drop] at hq ⊢
        have := Nat.lt_min.1 hq.1
        exact ⟨by show x + b < w.length; omega, trivial⟩
      | cons y q => simp [fData, InShape] at hq
  val := by
    intro q hq
    cases q with
    | nil => simp [fData, InShape] at hq
    | cons x q => cases q with
      | nil =>
        simp only [fData, InShape, addIdx, List.zipWith_cons_cons, List.zipWith_nil_left, List.length_take, List.length_drop] at hq ⊢
        have : x < m := by omega
        simp [List.getD_eq_getElem?_getD, List.getElem?_drop, this, Nat.add_comm]
      | cons y q => simp [fData, InShape] at hq

example : PartOf (fData [some 1, none, some 3, some 5, some 9, some 8]) (fData [none, some 3, some 5, some 9]) [1] :=
  partData_of [some 1, none, some 3, some 5, some 9, some 8] 1 4 (by decide)

example : FarFromCuts [3] [6] [4] [1] [1] ∧ FarFromCuts [3] [6] [4] [1] [2] ∧ ¬ FarFromCuts [3] [6] [4] [1] [0] ∧ ¬ FarFromCuts [3] [6] [4] [1] [3] := by
  simp [FarFromCuts]

example : fVals (convolve (fData [some 1, none, some 3, some 5, some 9, some 8]) (.int 3) true) = some [some 1, some 2, some 4, some (17/3), some (22/3), some (17/2)] ∧
    fVals (convolve (fData [none, some 3, some 5, some 9]) (.int 3) true) = some [some 3, some 4, some (17/3), some 7] := by
  decide +kernel

/-- C224 is false of the points where the kernel gives no weight to available data: the last two values of 1, missing, 3, 4 are a part that ends with the data, the kernel reaches nothing from
its last point, and the result there is 0 in the part and missing in the whole. -/
theorem C224_far_missing_violated :
    PartOf (fData [some 1, none, some 3, some 4]) (fData [some 3, some 4]) [2] ∧ FarFromCuts [3] [4] [2] [2] [1] ∧ ¬ FarFromCuts [3] [4] [2] [2] [0] ∧
    fVals (convolve (fData [some 1, none, some 3, some 4]) (.list [1, 0, 0]) false) = some [none, some 3, some 4, none] ∧
    fVals (convolve (fData [some 3, some 4]) (.list [1, 0, 0]) false) = some [some 4, some 0] :=
  ⟨partData_of [some 1, none, some 3, some 4] 2 2 (by decide), by simp [FarFromCuts], by simp [FarFromCuts], by decide +kernel, by decide +kernel⟩

end Xoa
