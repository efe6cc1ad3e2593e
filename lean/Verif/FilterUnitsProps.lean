import Verif.ErodeProps
import Verif.RegridUnitsProps

/-!
# C160: filters and units

Units of the data and scale of the kernel. Exact arithmetic.
-/

namespace Xoa
open V

/-- the kernel with all its weights multiplied by `c` -/
def LArr.scaled (c : ℚ) (k : LArr ℚ) : LArr ℚ := k.mapVals fun x => c * x

theorem availWeight_units (s t : ℚ) (data : LArr V) (k : LArr ℚ) (p : List Nat) : availWeight (data.inUnits s t) k p = availWeight data k p := by
  unfold availWeight
  show (((positions data.shape)).map _).sum = _
  congr 1
  refine List.map_congr_left fun q _ => ?_
  show ((data.val q).map _).elim 0 _ = _
  cases data.val q <;> rfl

theorem availSum_units (s t : ℚ) (data : LArr V) (k : LArr ℚ) (p : List Nat) :
    availSum (data.inUnits s t) k p = s * availSum data k p + t * availWeight data k p := by
  unfold availSum availWeight
  rw [← sum_mulLeft, ← sum_mulLeft, ← sum_addMap]
  show (((positions data.shape)).map _).sum = _
  congr 1
  refine List.map_congr_left fun q _ => ?_
  show ((data.val q).map _).elim 0 _ = _
  cases data.val q with
  | none => simp
  | some v => simp only [Option.map_some, Option.elim]; ring

theorem hasMissing_units (s t : ℚ) (data : LArr V) : (positions data.shape).any (fun q => ((data.inUnits s t).val q).isNone) =
    (positions data.shape).any (fun q => (data.val q).isNone) := by
  congr 1; funext q
  show ((data.val q).map _).isNone = _
  cases data.val q <;> rfl

/-- what `_convolve_` gives, with any kernel -/
theorem convolveNd_all (data : LArr V) (k : LArr ℚ) (hl : data.shape.length = k.shape.length) (normalize : Bool) :
    convolveNd data k normalize = .ok ⟨data.dims, data.shape, fun p =>
      if (positions data.shape).any (fun q => (data.val q).isNone) && decide (|min (max (availWeight data k p) 0) (kSum k)| ≤ 1 / 1000000 * kSum k) then none
      else if normalize then V.div (some (availSum data k p)) (some (min (max (availWeight data k p) 0) (kSum k))) else some (availSum data k p)⟩ := by
  unfold convolveNd
  rw [if_neg (by simpa using hl)]
  simp only [conv_filled, conv_valid]

theorem convolveNd_bad (data : LArr V) (k : LArr ℚ) (hl : data.shape.length ≠ k.shape.length) (normalize : Bool) :
    convolveNd data k normalize = .error .assertionError := by
  unfold convolveNd; rw [if_pos hl]

theorem vdiv_affine (s t a w : ℚ) : V.div (some (s * a + t * w)) (some w) = (V.div (some a) (some w)).map fun x => s * x + t := by
  by_cases hw : w = 0
  · subst hw; simp [V.div]
  · simp only [V.div, hw, if_false, Option.map_some]; congr 1; field_simp

/-- **C160 (units of the data).** With nonnegative weights, the normalised filter of data in other units (any factor, any origin) is the
filtered data in these units: the same values are missing. -/
theorem C160_units (s t : ℚ) (data : LArr V) (k : LArr ℚ) (hk : KNonneg k) :
    convolveNd (data.inUnits s t) k true = (convolveNd data k true).map (LArr.inUnits s t) := by
  by_cases hl : data.shape.length = k.shape.length
  · rw [convolveNd_all data k hl, convolveNd_all (data.inUnits s t) k hl]
    show Except.ok _ = Except.ok _
    congr 1
    show LArr.mk _ _ _ = LArr.mk _ _ _
    congr 1
    funext p
    dsimp only
    rw [show (data.inUnits s t).shape = data.shape from rfl, hasMissing_units, availWeight_units, availSum_units, clip_weight data k hk]
    split
    · rfl
    · simp only [if_true]; exact vdiv_affine _ _ _ _
  · rw [convolveNd_bad data k hl, convolveNd_bad (data.inUnits s t) k hl]; rfl

/-- **C160 (factor of the data).** With any kernel, normalised or not, the filter of data multiplied by a factor is the filtered data multiplied by it. -/
theorem C160_factor (s : ℚ) (data : LArr V) (k : LArr ℚ) (normalize : Bool) :
    convolveNd (data.inUnits s 0) k normalize = (convolveNd data k normalize).map (LArr.inUnits s 0) := by
  by_cases hl : data.shape.length = k.shape.length
  · rw [convolveNd_all data k hl, convolveNd_all (data.inUnits s 0) k hl]
    show Except.ok _ = Except.ok _
    congr 1
    show LArr.mk _ _ _ = LArr.mk _ _ _
    congr 1
    funext p
    dsimp only
    rw [show (data.inUnits s 0).shape = data.shape from rfl, hasMissing_units, availWeight_units, availSum_units, zero_mul, add_zero]
    split
    · rfl
    · split
      · have := vdiv_affine s 0 (availSum data k p) (min (max (availWeight data k p) 0) (kSum k))
        rw [zero_mul, add_zero] at this; exact this
      · simp
  · rw [convolveNd_bad data k hl, convolveNd_bad (data.inUnits s 0) k hl]; rfl

theorem kAt_scaled (c : ℚ) (k : LArr ℚ) (p q : List Nat) : kAt (k.scaled c) p q = c * kAt k p q := by
  unfold kAt
  show (kIdx k.shape p q).elim 0 (fun i => c * k.val i) = _
  cases kIdx k.shape p q <;> simp

theorem kSum_scaled (c : ℚ) (k : LArr ℚ) : kSum (k.scaled c) = c * kSum k := by
  unfold kSum; exact sum_mulLeft (positions k.shape) c k.val

theorem availWeight_scaled (c : ℚ) (data : LArr V) (k : LArr ℚ) (p : List Nat) : availWeight data (k.scaled c) p = c * availWeight data k p := by
  unfold availWeight
  rw [← sum_mulLeft]
  congr 1
  refine List.map_congr_left fun q _ => ?_
  cases data.val q with
  | none => simp
  | some v => exact kAt_scaled c k p q

theorem availSum_scaled (c : ℚ) (data : LArr V) (k : LArr ℚ) (p : List Nat) : availSum data (k.scaled c) p = c * availSum data k p := by
  unfold availSum
  rw [← sum_mulLeft]
  congr 1
  refine List.map_congr_left fun q _ => ?_
  cases data.val q with
  | none => simp
  | some v => simp only [Option.elim, kAt_scaled]; ring

theorem clip_scaled (c : ℚ) (hc : 0 < c) (w m : ℚ) : min (max (c * w) 0) (c * m) = c * min (max w 0) m := by
  rw [mul_min_of_nonneg _ _ hc.le, mul_max_of_nonneg _ _ hc.le, mul_zero]

theorem vdiv_scaled (c a w : ℚ) (hc : 0 < c) : V.div (some (c * a)) (some (c * w)) = V.div (some a) (some w) := by
  by_cases hw : w = 0
  · subst hw; simp [V.div]
  · have hcw : c * w ≠ 0 := mul_ne_zero hc.ne' hw
    simp only [V.div, hw, hcw, if_false]; congr 1; field_simp

/-- **C160 (scale of the kernel).** The normalised filter does not depend on the scale of the kernel: multiplying all its weights
by the same positive number gives the same array, missing values included, with any kernel. -/
theorem C160_kernel_scale (c : ℚ) (hc : 0 < c) (data : LArr V) (k : LArr ℚ) : convolveNd data (k.scaled c) true = convolveNd data k true := by
  by_cases hl : data.shape.length = k.shape.length
  · rw [convolveNd_all data k hl, convolveNd_all data (k.scaled c) hl]
    congr 2
    funext p
    rw [availWeight_scaled, availSum_scaled, kSum_scaled, clip_scaled c hc, abs_mul, abs_of_pos hc, vdiv_scaled c _ _ hc]
    have : (c * |min (max (availWeight data k p) 0) (kSum k)| ≤ 1 / 1000000 * (c * kSum k)) ↔
        (|min (max (availWeight data k p) 0) (kSum k)| ≤ 1 / 1000000 * kSum k) := by
      rw [show 1 / 1000000 * (c * kSum k) = c * (1 / 1000000 * kSum k) by ring]
      exact mul_le_mul_iff_right₀ hc
    simp only [this, if_true]
  · rw [convolveNd_bad data k hl, convolveNd_bad data (k.scaled c) hl]

/-! ## `convolve` and `erode_mask` -/

/-- every kernel that the specification gives for these dimensions has nonnegative weights -/
def SpecNonneg (spec : KSpec) (dims : List String) : Prop := ∀ k, generateKernel onesWindow 0 spec dims = .ok k → KNonneg k

/-- **C160 (`convolve`).** With any kernel specification that gives nonnegative weights. -/
theorem C160_convolve_units (s t : ℚ) (data : LArr V) (spec : KSpec) (hk : SpecNonneg spec data.dims) :
    convolve (data.inUnits s t) spec true = (convolve data spec true).map (LArr.inUnits s t) := by
  unfold convolve
  rw [show (data.inUnits s t).dims = data.dims from rfl]
  cases h : generateKernel onesWindow 0 spec data.dims with
  | error e => rfl
  | ok k => exact C160_units s t data k (hk k h)

theorem convolve_da (data : LArr V) (k : LArr ℚ) (h : Fits data k) : convolve data (.da k) true = convolveNd data k true := by
  obtain ⟨k', h1, h2⟩ := regenerated onesWindow 0 data k h true
  unfold convolve
  rw [h1]; exact h2

theorem fits_units (s t : ℚ) {data : LArr V} {k : LArr ℚ} (h : Fits data k) : Fits (data.inUnits s t) k := fill_fits h rfl rfl

theorem convolveFill_units (s t : ℚ) (data : LArr V) (k : LArr ℚ) (h : Fits data k) (hk : KNonneg k) :
    convolveFill (data.inUnits s t) k = (convolveFill data k).map (LArr.inUnits s t) := by
  unfold convolveFill
  rw [convolve_da data k h, convolve_da _ k (fits_units s t h), C160_units s t data k hk]
  cases convolveNd data k true with
  | error e => rfl
  | ok c =>
    show Except.ok _ = Except.ok _
    congr 1
    show LArr.mk _ _ _ = LArr.mk _ _ _
    congr 1
    funext p
    show ((data.val p).map _).orElse (fun _ => (c.val p).map _) = ((data.val p).orElse fun _ => c.val p).map _
    cases data.val p <;> rfl

theorem convolveFill_fits {data d : LArr V} {k : LArr ℚ} (h : Fits data k) (hd : convolveFill data k = .ok d) : Fits d k := by
  obtain ⟨c, d', _, h2, h3, h4, _⟩ := fill_ok data k h
  rw [hd] at h2; cases h2
  exact fill_fits h h3 h4

theorem erodeIter_units (s t : ℚ) (k : LArr ℚ) (hk : KNonneg k) (n : Nat) (data : LArr V) (h : Fits data k) :
    erodeIter k n (data.inUnits s t) = (erodeIter k n data).map (LArr.inUnits s t) := by
  induction n generalizing data with
  | zero => rfl
  | succ n ih =>
    show (convolveFill (data.inUnits s t) k >>= fun d => erodeIter k n d) = (convolveFill data k >>= fun d => erodeIter k n d).map _
    rw [convolveFill_units s t data k h hk]
    cases hd : convolveFill data k with
    | error e => rfl
    | ok d => exact ih d (convolveFill_fits h hd)

theorem reduceMask_units (s t : ℚ) (data : LArr V) (kd : List String) : reduceMask (data.inUnits s t) kd = reduceMask data kd := by
  unfold reduceMask
  show LArr.mk _ _ _ = LArr.mk _ _ _
  congr 1
  funext idx
  show ((positions _).any fun r => ((data.val _).map _).isNone) = _
  congr 1
  funext r
  cases h : data.val (data.dims.map (look (data.dims.filter (· ∈ kd) ++ data.dims.filter (· ∉ kd)) (idx ++ r))) with
  | none => simp only [show (data.inUnits s t).dims = data.dims from rfl, h]; rfl
  | some v => simp only [show (data.inUnits s t).dims = data.dims from rfl, h]; rfl

theorem erodeUntil_units (s t : ℚ) (k : LArr ℚ) (hk : KNonneg k) (mask : LArr Bool) (fuel : Nat) (data : LArr V) (h : Fits data k) :
    erodeUntil k mask fuel (data.inUnits s t) = (erodeUntil k mask fuel data).map (Except.map (LArr.inUnits s t)) := by
  induction fuel generalizing data with
  | zero => rfl
  | succ n ih =>
    unfold erodeUntil
    rw [convolveFill_units s t data k h hk]
    cases hd : convolveFill data k with
    | error e => rfl
    | ok d =>
      show (if orCount mask (reduceMask (d.inUnits s t) (kDims k)) > maskCount mask then _ else _) = _
      rw [reduceMask_units]
      by_cases hc : orCount mask (reduceMask d (kDims k)) > maskCount mask
      · simp only [hc, if_true]; exact ih d (convolveFill_fits h hd)
      · simp only [hc, if_false]; rfl

/-- **C160 (`erode_mask`).** With nonnegative weights, eroding the mask of data in other units, any number of turns or down to a mask, gives
the eroded data in these units: the same points are filled, and the loop ends after the same number of turns or never. -/
theorem C160_erode_units (s t : ℚ) (data : LArr V) (spec : KSpec) (k : LArr ℚ) (hk : ErodeKernel data spec k) (hn : KNonneg k) :
    (∀ n : Int, erodeMaskN (data.inUnits s t) n spec = (erodeMaskN data n spec).map (LArr.inUnits s t)) ∧
    ∀ (mask : LArr Bool) (fuel : Nat), erodeMaskUntil (data.inUnits s t) mask spec fuel =
      (erodeMaskUntil data mask spec fuel).map (Except.map (LArr.inUnits s t)) := by
  have he : erodeKernel (data.inUnits s t) spec = erodeKernel data spec := rfl
  constructor
  · intro n
    unfold erodeMaskN
    rw [he, hk.made]
    exact erodeIter_units s t k hn _ data hk.fits
  · intro mask fuel
    unfold erodeMaskUntil
    rw [he, hk.made]
    rw [show (data.inUnits s t).dims = data.dims from rfl]
    by_cases h1 : data.dims.length < 2
    · simp only [h1, if_true]; rfl
    · by_cases h2 : ∃ d ∈ mask.dims, d ∉ data.dims
      · simp only [h1, h2, if_true, if_false]; rfl
      · simp only [h1, h2, if_false]
        cases transposeTo mask (data.dims.map some) (fun _ => none) .compat with
        | error e => rfl
        | ok m => exact erodeUntil_units s t k hn m fuel data hk.fits

/-! A concrete case, with missing values: degrees Celsius and kelvins, default kernel. -/
example : ∃ k, ErodeKernel (eData [[some 1, none, none], [none, none, some 9]]) (.da (shapiroKernel ["y", "x"])) k ∧ KNonneg k := by
  obtain ⟨k, h1, h2, _⟩ := shapiro_erode (eData [[some 1, none, none], [none, none, some 9]]) ⟨by decide, by decide⟩ "y" "x" (by decide) (by decide) (by decide)
  exact ⟨k, h1, h2⟩
example : fVals (erodeMaskN ((eData [[some 1, none, none], [none, none, some 9]]).inUnits 1 273) 1 (.da (shapiroKernel ["y", "x"]))) =
    some [some 274, some 274, some 282, some 274, some 282, some 282] := by decide +kernel

end Xoa
