import Verif.FilterInt
import Verif.FilterKernelProps
import Verif.FilterProps

/-!
# C201: filtering data of an integer type
-/

namespace Xoa

/-! ## specification -/

/-- the same data as floats -/
def asFloat (data : LArr Int) : LArr V := ⟨data.dims, data.shape, fun p => some (data.val p : ℚ)⟩

/-- the weight is an integer -/
def IntWeights (k : LArr ℚ) : Prop := ∀ idx, ∃ n : Int, k.val idx = n

/-- the kernel with every weight cut after the decimal point -/
def cutKernel (k : LArr ℚ) : LArr ℚ := ⟨k.dims, k.shape, fun idx => ((if 0 ≤ k.val idx then ⌊k.val idx⌋ else ⌈k.val idx⌉ : Int) : ℚ)⟩

/-! ## lemmas -/

theorem truncQ_eq (q : ℚ) : truncQ q = (if 0 ≤ q then ⌊q⌋ else ⌈q⌉ : Int) := rfl

theorem truncQ_int (n : Int) : truncQ (n : ℚ) = n := by
  rw [truncQ_eq]; split <;> simp

theorem truncQ_small (q : ℚ) (h1 : -1 < q) (h2 : q < 1) : truncQ q = 0 := by
  rw [truncQ_eq]
  split
  · rename_i h; rw [Int.floor_eq_iff]; constructor <;> simp [h, h2]
  · rename_i h; rw [Int.ceil_eq_iff]
    constructor
    · push_cast; linarith
    · push_cast; linarith

theorem cast_listSum {α} (l : List α) (f : α → Int) : (((l.map f).sum : Int) : ℚ) = (l.map (fun q => (f q : ℚ))).sum := by
  induction l with
  | nil => simp
  | cons a l ih => simp [ih]

theorem convInt_eq (shape : List Nat) (data : List Nat → Int) (k : LArr ℚ) (p : List Nat) :
    (convInt shape data (truncKernel k) p : ℚ) = conv shape (fun q => (data q : ℚ)) (cutKernel k) p := by
  unfold convInt conv
  rw [cast_listSum]
  congr 1
  apply List.map_congr_left
  intro q _
  unfold kAt
  show (((kIdx k.shape p q).elim 0 (truncKernel k).val * data q : Int) : ℚ) = (kIdx k.shape p q).elim 0 (cutKernel k).val * (data q : ℚ)
  cases kIdx k.shape p q with
  | none => simp
  | some j =>
    simp only [Option.elim_some]
    push_cast
    rfl

theorem cutKernel_int (k : LArr ℚ) (h : IntWeights k) : cutKernel k = k := by
  unfold cutKernel
  cases k with
  | mk d s v =>
    congr 1
    funext idx
    obtain ⟨n, hn⟩ := h idx
    have h := congrArg (fun z : Int => (z : ℚ)) (truncQ_int n)
    rw [← hn, truncQ_eq] at h
    exact h

theorem convolveInt_ok (data : LArr Int) (spec : KSpec) (k : LArr ℚ) (hk : generateKernel onesWindow 0 spec data.dims = .ok k) (n : Bool) :
    convolveInt data spec n = convolveNdInt data (truncKernel k) n := by
  unfold convolveInt; rw [hk]; rfl

theorem convolve_asFloat (data : LArr Int) (spec : KSpec) (k : LArr ℚ) (hk : generateKernel onesWindow 0 spec data.dims = .ok k) (n : Bool) :
    convolve (asFloat data) spec n = convolveNd (asFloat data) k n := by
  unfold convolve
  show (generateKernel onesWindow 0 spec data.dims >>= fun k => convolveNd (asFloat data) k n) = _
  rw [hk]; rfl

/-! ## C201 -/

/-- C201, partial: `convolve` of data of an integer type, without normalisation, gives what the same data as floats give when the weights of the kernel are integers
(sizes, the shapiro kernel): the same failures, and the same values at each point. What is missing is refuted by
`C201_truncated_violated` and `C201_normalized_violated`. -/
theorem C201_integer_weights_partial (data : LArr Int) (spec : KSpec)
    (hi : ∀ k, generateKernel onesWindow 0 spec data.dims = .ok k → IntWeights k) :
    (∀ e, convolveInt data spec false = .error e ↔ convolve (asFloat data) spec false = .error e) ∧
    ∀ r, convolveInt data spec false = .ok r → r.dims = data.dims ∧ r.shape = data.shape ∧
      ∃ r', convolve (asFloat data) spec false = .ok r' ∧ r'.dims = data.dims ∧ r'.shape = data.shape ∧ ∀ p, r'.val p = some (r.val p : ℚ) := by
  cases hk : generateKernel onesWindow 0 spec data.dims with
  | error e0 =>
    have h1 : convolveInt data spec false = .error e0 := by unfold convolveInt; rw [hk]; rfl
    have h2 : convolve (asFloat data) spec false = .error e0 := by
      unfold convolve
      show (generateKernel onesWindow 0 spec data.dims >>= fun k => convolveNd (asFloat data) k false) = _
      rw [hk]; rfl
    rw [h1, h2]
    exact ⟨fun e => Iff.rfl.trans (by simp), fun r hr => by cases hr⟩
  | ok k =>
    rw [convolveInt_ok data spec k hk, convolve_asFloat data spec k hk]
    have hcut := cutKernel_int k (hi k hk)
    by_cases hl : data.shape.length = k.shape.length
    · obtain ⟨r', h1, h2, h3, h4⟩ := convolveNd_full data.dims data.shape (fun q => (data.val q : ℚ)) k hl
      have hc : convolveNd (asFloat data) k false = .ok r' := h1
      have hI : convolveNdInt data (truncKernel k) false = .ok ⟨data.dims, data.shape, convInt data.shape data.val (truncKernel k)⟩ := by
        unfold convolveNdInt
        rw [if_neg (by simpa [truncKernel] using hl)]; rfl
      rw [hc, hI]
      refine ⟨fun e => ⟨fun h => (by cases h), fun h => (by cases h)⟩, ?_⟩
      intro r hr
      cases hr
      refine ⟨rfl, rfl, r', rfl, h2, h3, fun p => ?_⟩
      rw [h4 p]
      dsimp only
      rw [convInt_eq, hcut]
    · have h1 : convolveNdInt data (truncKernel k) false = .error .assertionError := by
        unfold convolveNdInt; rw [if_pos (by simpa [truncKernel] using hl)]
      have h2 : convolveNd (asFloat data) k false = .error .assertionError := by
        unfold convolveNd; rw [if_pos (by simpa [asFloat] using hl)]
      rw [h1, h2]
      exact ⟨fun e => Iff.rfl.trans (by simp), fun r hr => by cases hr⟩

/-- C201, in general: without normalisation the result is the convolution of the same data as floats by the kernel with its weights cut after the decimal point -/
theorem C201_cut (data : LArr Int) (spec : KSpec) (k : LArr ℚ) (hk : generateKernel onesWindow 0 spec data.dims = .ok k)
    (hl : data.shape.length = k.shape.length) :
    ∃ r r', convolveInt data spec false = .ok r ∧ convolveNd (asFloat data) (cutKernel k) false = .ok r' ∧
      r.dims = data.dims ∧ r.shape = data.shape ∧ ∀ p, r'.val p = some (r.val p : ℚ) := by
  obtain ⟨r', h1, -, -, h4⟩ := convolveNd_full data.dims data.shape (fun q => (data.val q : ℚ)) (cutKernel k) hl
  refine ⟨⟨data.dims, data.shape, convInt data.shape data.val (truncKernel k)⟩, r', ?_, h1, rfl, rfl, ?_⟩
  · rw [convolveInt_ok data spec k hk]
    unfold convolveNdInt
    rw [if_neg (by simpa [truncKernel] using hl)]; rfl
  · intro p
    rw [h4 p]
    dsimp only
    rw [convInt_eq]

/-- C201 is false of weights between -1 and 1, like those of a mean: whatever the integer data the result is zero everywhere. -/
theorem C201_truncated_violated (data : LArr Int) (spec : KSpec) (k : LArr ℚ) (hk : generateKernel onesWindow 0 spec data.dims = .ok k)
    (hl : data.shape.length = k.shape.length) (hw : ∀ idx, -1 < k.val idx ∧ k.val idx < 1) :
    ∃ r, convolveInt data spec false = .ok r ∧ r.shape = data.shape ∧ ∀ p, r.val p = 0 := by
  refine ⟨⟨data.dims, data.shape, convInt data.shape data.val (truncKernel k)⟩, ?_, rfl, ?_⟩
  · rw [convolveInt_ok data spec k hk]
    unfold convolveNdInt
    rw [if_neg (by simpa [truncKernel] using hl)]; rfl
  · intro p
    show convInt data.shape data.val (truncKernel k) p = 0
    unfold convInt
    apply List.sum_eq_zero
    intro x hx
    obtain ⟨q, -, rfl⟩ := List.mem_map.mp hx
    cases h : kIdx (truncKernel k).shape p q with
    | none => simp
    | some j =>
      simp only [Option.elim_some]
      rw [show (truncKernel k).val j = truncQ (k.val j) from rfl, truncQ_small _ (hw j).1 (hw j).2, zero_mul]

/-- C201 is false of the normalised convolution: it fails for all data of an integer type and all kernels. -/
theorem C201_normalized_violated (data : LArr Int) (spec : KSpec) : ∃ e, convolveInt data spec true = .error e := by
  unfold convolveInt
  cases generateKernel onesWindow 0 spec data.dims with
  | error e => exact ⟨e, rfl⟩
  | ok k =>
    show ∃ e, convolveNdInt data (truncKernel k) true = .error e
    unfold convolveNdInt
    split
    · exact ⟨_, rfl⟩
    · exact ⟨_, rfl⟩

/-- C201 is false of `erode_mask`: data of an integer type, that have no missing value to fill, are refused as soon as one turn is asked for -/
theorem C201_erode_violated (data : LArr Int) (niter : Int) (spec : KSpec) (hn : 0 < niter) : ∃ e, erodeMaskInt data niter spec = .error e := by
  unfold erodeMaskInt
  split
  · exact ⟨_, rfl⟩
  · cases generateKernel onesWindow 0 spec data.dims with
    | error e => exact ⟨e, rfl⟩
    | ok k =>
      show ∃ e, (if 2 < (kDims k).length then Except.error CErr.xoaError else erodeIterInt (truncKernel k) niter.toNat data) = .error e
      split
      · exact ⟨_, rfl⟩
      · obtain ⟨m, hm⟩ : ∃ m, niter.toNat = m + 1 := ⟨niter.toNat - 1, by omega⟩
        rw [hm]
        unfold erodeIterInt
        obtain ⟨e, he⟩ := C201_normalized_violated data (.da ⟨(truncKernel k).dims, (truncKernel k).shape, fun idx => ((truncKernel k).val idx : ℚ)⟩)
        rw [he]
        exact ⟨e, rfl⟩

/-- With no turn to do, `erode_mask` gives the integer data back, and refuses exactly the data and kernels that it refuses for the same data as
floats, with the same error: less than two dimensions, kernel that cannot be made, kernel of more than two dimensions. -/
theorem C201_erode_no_turn_partial (data : LArr Int) (niter : Int) (spec : KSpec) (hn : niter ≤ 0) :
    erodeMaskInt data niter spec = (erodeMaskN (asFloat data) niter spec).map (fun _ => data) := by
  have h0 : niter.toNat = 0 := by omega
  unfold erodeMaskInt erodeMaskN erodeKernel
  rw [h0]
  show _ = Except.map _ ((if data.dims.length < 2 then Except.error CErr.xoaError else do
    let k ← generateKernel onesWindow 0 spec data.dims
    if 2 < (kDims k).length then Except.error CErr.xoaError else Except.ok k) >>= fun k => erodeIter k 0 (asFloat data))
  by_cases h2 : data.dims.length < 2
  · rw [if_pos h2, if_pos h2]; rfl
  · rw [if_neg h2, if_neg h2]
    cases generateKernel onesWindow 0 spec data.dims with
    | error e => rfl
    | ok k =>
      show (if 2 < (kDims k).length then Except.error CErr.xoaError else Except.ok data) =
        Except.map _ ((if 2 < (kDims k).length then Except.error CErr.xoaError else Except.ok k) >>= fun k => erodeIter k 0 (asFloat data))
      split <;> rfl

/-! ## non-vacuity -/

/-- the mean of three points, of integer data -/
def exIntData : LArr Int := ⟨["x"], [4], fun p => [3, 6, 9, 12].getD (p.getD 0 0) 0⟩

example : ((convolveInt exIntData (.int 3) false).toOption.map (fun r => (positions r.shape).map r.val)) = some [9, 18, 27, 21] := by decide +kernel
example : ((convolve (asFloat exIntData) (.int 3) false).toOption.map (fun r => (positions r.shape).map r.val)) =
    some [some 9, some 18, some 27, some 21] := by decide +kernel
example : ((convolveInt exIntData (.list [1/3, 1/3, 1/3]) false).toOption.map (fun r => (positions r.shape).map r.val)) = some [0, 0, 0, 0] := by
  decide +kernel
example : ((convolve (asFloat exIntData) (.list [1/3, 1/3, 1/3]) false).toOption.map (fun r => (positions r.shape).map r.val)) =
    some [some 3, some 6, some 9, some 7] := by decide +kernel
example : ((convolve (asFloat exIntData) (.int 3) true).toOption.map (fun r => (positions r.shape).map r.val)) =
    some [some (9/2), some 6, some 9, some (21/2)] := by decide +kernel

/-- integer data in two dimensions -/
def exIntData2 : LArr Int := ⟨["y", "x"], [2, 2], fun p => 10 * (p.getD 0 0 : Nat) + (p.getD 1 0 : Nat)⟩

example : ((erodeMaskInt exIntData2 0 (.int 3)).toOption.map (fun r => (positions r.shape).map r.val)) = some [0, 1, 10, 11] := by decide +kernel
example : (erodeMaskInt exIntData 0 (.int 3)).toOption.isNone = true := by decide +kernel

end Xoa
