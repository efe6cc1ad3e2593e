import Verif.FilterKernelProps

namespace Xoa

/-! ## one turn of the erosion -/

/-- the kernel is ready for the data: same dimensions in the same order -/
structure Fits (data : LArr V) (k : LArr ℚ) : Prop where
  dok : data.Ok
  kok : k.Ok
  dims : k.dims = data.dims

theorem regenerated (window : Nat → List ℚ) (fill : ℚ) (data : LArr V) (k : LArr ℚ) (h : Fits data k) (n : Bool) :
    ∃ k', generateKernel window fill (.da k) data.dims = .ok k' ∧ convolveNd data k' n = convolveNd data k n := by
  obtain ⟨k', h1, ht⟩ := generateKernel_da window fill k h.kok data.dims h.dok.nodup (by rw [h.dims]; exact fun _ h => h)
  refine ⟨k', h1, ?_⟩
  have hd : k'.dims = k.dims := by rw [ht.dims, h.dims]
  have hs : k'.shape = k.shape := by
    rw [shape_eq k' ht.ok, shape_eq k h.kok, hd]
    apply List.map_congr_left
    intro d hd'
    exact (ht.sizes d hd').2
  have hv : ∀ j, InShape k.shape j → k'.val j = k.val j := by
    intro j hj
    have hl : j.length = k.dims.length := by rw [inShape_length _ _ hj, h.kok.len]
    have := ht.vals (look k.dims j)
    unfold LArr.at at this
    rw [hd, map_look k.dims j h.kok.nodup hl] at this
    exact this
  have e1 : ∀ p q, kAt k' p q = kAt k p q := by
    intro p q
    unfold kAt
    rw [hs]
    cases hj : kIdx k.shape p q with
    | none => rfl
    | some j => exact hv j (kIdx_inShape _ _ _ _ hj)
  have e2 : kSum k' = kSum k := by
    unfold kSum
    rw [hs]
    congr 1
    exact List.map_congr_left (fun j hj => hv j ((mem_positions _ _).1 hj))
  have e3 : ∀ f p, conv data.shape f k' p = conv data.shape f k p := by
    intro f p
    unfold conv
    simp only [e1]
  unfold convolveNd
  rw [hs, e2]
  have e4 : ∀ f, conv data.shape f k' = conv data.shape f k := fun f => funext (e3 f)
  simp only [e4]

theorem fits_length {data : LArr V} {k : LArr ℚ} (h : Fits data k) : data.shape.length = k.shape.length := by
  rw [h.dok.len, h.kok.len, h.dims]

/-- one turn -/
theorem fill_ok (data : LArr V) (k : LArr ℚ) (h : Fits data k) :
    ∃ c d, convolveNd data k true = .ok c ∧ convolveFill data k = .ok d ∧ d.dims = data.dims ∧ d.shape = data.shape ∧
      ∀ p, d.val p = (data.val p).orElse (fun _ => c.val p) := by
  obtain ⟨k', h1, h2⟩ := regenerated onesWindow 0 data k h true
  have : ∃ c, convolveNd data k true = .ok c := by
    unfold convolveNd
    rw [if_neg (by simpa using fits_length h)]
    exact ⟨_, rfl⟩
  obtain ⟨c, hc⟩ := this
  refine ⟨c, ⟨data.dims, data.shape, fun p => (data.val p).orElse (fun _ => c.val p)⟩, hc, ?_, rfl, rfl, fun _ => rfl⟩
  unfold convolveFill convolve
  simp only [h1, bind, Except.bind, h2, hc]

theorem fill_fits {data d : LArr V} {k : LArr ℚ} (h : Fits data k) (h1 : d.dims = data.dims) (h2 : d.shape = data.shape) : Fits d k :=
  ⟨⟨by rw [h1]; exact h.dok.nodup, by rw [h1, h2]; exact h.dok.len⟩, h.kok, by rw [h.dims, h1]⟩

/-- what one turn does -/
structure Turn (k : LArr ℚ) (data d : LArr V) : Prop where
  dims : d.dims = data.dims
  shape : d.shape = data.shape
  keep : ∀ p v, data.val p = some v → d.val p = some v
  fill : KNonneg k → ∀ p x, data.val p = none → d.val p = some x →
    (∃ q, Available data k p q) ∧ x = availSum data k p / availWeight data k p ∧
      ∀ lo hi, (∀ q v, Available data k p q → data.val q = some v → lo ≤ v ∧ v ≤ hi) → lo ≤ x ∧ x ≤ hi
  reach : KNonneg k → ∀ p q, InShape data.shape p → Available data k p q → 1 / 1000000 * kSum k < kAt k p q → ∃ x, d.val p = some x
  none : KNonneg k → ∀ p, InShape data.shape p → data.val p = none → (¬ ∃ q, Available data k p q) → d.val p = none

theorem turn_ok (data : LArr V) (k : LArr ℚ) (h : Fits data k) : ∃ d, convolveFill data k = .ok d ∧ Turn k data d := by
  obtain ⟨c, d, hc, hd, h1, h2, h3⟩ := fill_ok data k h
  refine ⟨d, hd, h1, h2, ?_, ?_, ?_, ?_⟩
  · intro p v hv
    rw [h3 p, hv]
    rfl
  · intro hk p x hn hx
    rw [h3 p, hn] at hx
    obtain ⟨-, -, h4⟩ := C22_weighted_mean data c k hk hc
    exact h4 p x hx
  · intro hk p q hp hq hw
    rw [h3 p]
    cases hv : data.val p with
    | some v => exact ⟨v, rfl⟩
    | none =>
      have := (C77_missing_partial data c k hk hc ⟨p, hp, hv⟩ p).2.2 ⟨q, hq, hw⟩
      obtain ⟨x, hx⟩ := Option.ne_none_iff_exists'.1 this
      exact ⟨x, by simpa using hx⟩
  · intro hk p hp hv hq
    rw [h3 p, hv]
    have := (C77_missing_partial data c k hk hc ⟨p, hp, hv⟩ p).2.1 hq
    simpa using this

/-! ## C25 -/

theorem erodeIter_succ (k : LArr ℚ) (n : Nat) (data d : LArr V) (h : convolveFill data k = .ok d) : erodeIter k (n + 1) data = erodeIter k n d := by
  conv_lhs => unfold erodeIter
  simp only [h, bind, Except.bind]

theorem iter_ok (k : LArr ℚ) (n : Nat) : ∀ (data : LArr V), Fits data k →
    ∃ r, erodeIter k n data = .ok r ∧ r.dims = data.dims ∧ r.shape = data.shape ∧ Fits r k ∧
      (∀ p v, data.val p = some v → r.val p = some v) := by
  induction n with
  | zero => intro data h; exact ⟨data, rfl, rfl, rfl, h, fun _ _ h => h⟩
  | succ n ih =>
    intro data h
    obtain ⟨d, hd, ht⟩ := turn_ok data k h
    have hf := fill_fits h ht.dims ht.shape
    obtain ⟨r, h1, h2, h3, h4, h5⟩ := ih d hf
    exact ⟨r, by rw [erodeIter_succ k n data d hd]; exact h1, by rw [h2, ht.dims], by rw [h3, ht.shape], h4,
      fun p v hv => h5 p v (ht.keep p v hv)⟩

theorem iter_add (k : LArr ℚ) (m : Nat) : ∀ (n : Nat) (data r : LArr V), erodeIter k m data = .ok r →
    erodeIter k (m + n) data = erodeIter k n r := by
  induction m with
  | zero => intro n data r h; cases h; rw [Nat.zero_add]
  | succ m ih =>
    intro n data r h
    cases hd : convolveFill data k with
    | error e =>
      unfold erodeIter at h
      simp only [hd, bind, Except.bind] at h
      cases h
    | ok d =>
      rw [erodeIter_succ k m data d hd] at h
      rw [show m + 1 + n = (m + n) + 1 by omega, erodeIter_succ k (m + n) data d hd]
      exact ih n d r h

/-- the kernel that `erode_mask` uses, when it suits the data -/
structure ErodeKernel (data : LArr V) (spec : KSpec) (k : LArr ℚ) : Prop where
  made : erodeKernel data spec = .ok k
  fits : Fits data k

/-- C25: whatever the kernel, eroding keeps the layout, never changes a valid value and never makes it missing. -/
theorem C25_valid_kept (data : LArr V) (spec : KSpec) (k : LArr ℚ) (hk : ErodeKernel data spec k) (n : Int) :
    ∃ r, erodeMaskN data n spec = .ok r ∧ r.dims = data.dims ∧ r.shape = data.shape ∧ ∀ p v, data.val p = some v → r.val p = some v := by
  obtain ⟨r, h1, h2, h3, h4, h5⟩ := iter_ok k n.toNat data hk.fits
  refine ⟨r, ?_, h2, h3, h5⟩
  unfold erodeMaskN
  simp only [hk.made, bind, Except.bind]
  exact h1

/-- C25: one turn fills a missing point with the mean, weighted by the kernel, of the available data around it. -/
theorem C25_filled_by_mean (data r : LArr V) (spec : KSpec) (k : LArr ℚ) (hk : ErodeKernel data spec k) (hn : KNonneg k)
    (hr : erodeMaskN data 1 spec = .ok r) (p : List Nat) (x : ℚ) (h0 : data.val p = none) (hx : r.val p = some x) :
    (∃ q, Available data k p q) ∧ x = availSum data k p / availWeight data k p := by
  obtain ⟨d, hd, ht⟩ := turn_ok data k hk.fits
  have : r = d := by
    unfold erodeMaskN at hr
    simp only [hk.made, bind, Except.bind] at hr
    rw [show (1 : Int).toNat = 0 + 1 from rfl, erodeIter_succ k 0 data d hd] at hr
    cases hr; rfl
  subst this
  obtain ⟨a, b, -⟩ := ht.fill hn p x h0 hx
  exact ⟨a, b⟩

theorem iter_bounds (k : LArr ℚ) (hn : KNonneg k) (lo hi : ℚ) (n : Nat) : ∀ (data r : LArr V), Fits data k →
    erodeIter k n data = .ok r → (∀ q v, InShape data.shape q → data.val q = some v → lo ≤ v ∧ v ≤ hi) →
    ∀ q v, InShape r.shape q → r.val q = some v → lo ≤ v ∧ v ≤ hi := by
  induction n with
  | zero => intro data r _ h hb; cases h; exact hb
  | succ n ih =>
    intro data r h hr hb
    obtain ⟨d, hd, ht⟩ := turn_ok data k h
    rw [erodeIter_succ k n data d hd] at hr
    refine ih d r (fill_fits h ht.dims ht.shape) hr ?_
    intro q v hq hv
    rw [ht.shape] at hq
    cases h0 : data.val q with
    | some w =>
      have := ht.keep q w h0
      rw [hv] at this
      cases this
      exact hb q v hq h0
    | none =>
      exact (ht.fill hn q v h0 hv).2.2 lo hi (fun q' v' ha hv' => hb q' v' ha.1 hv')

/-- C25: after any number of turns the filled values stay between the extrema of the data. -/
theorem C25_bounds (data r : LArr V) (spec : KSpec) (k : LArr ℚ) (hk : ErodeKernel data spec k) (hn : KNonneg k) (n : Int)
    (hr : erodeMaskN data n spec = .ok r) (lo hi : ℚ) (hb : ∀ q v, InShape data.shape q → data.val q = some v → lo ≤ v ∧ v ≤ hi) :
    ∀ q v, InShape data.shape q → r.val q = some v → lo ≤ v ∧ v ≤ hi := by
  unfold erodeMaskN at hr
  simp only [hk.made, bind, Except.bind] at hr
  obtain ⟨r', h1, -, h3, -⟩ := iter_ok k n.toNat data hk.fits
  rw [hr] at h1
  cases h1
  have := iter_bounds k hn lo hi n.toNat data r hk.fits hr hb
  rw [h3] at this
  exact this

/-- C25: more turns erode at least as much, and keep what less turns have made; turns compose. -/
theorem C25_more_turns (data rm rn : LArr V) (spec : KSpec) (k : LArr ℚ) (hk : ErodeKernel data spec k) (m n : Nat) (hmn : m ≤ n)
    (hm : erodeMaskN data m spec = .ok rm) (hn : erodeMaskN data n spec = .ok rn) :
    (∀ p v, rm.val p = some v → rn.val p = some v) ∧ erodeIter k (n - m) rm = .ok rn := by
  unfold erodeMaskN at hm hn
  simp only [hk.made, bind, Except.bind, Int.toNat_natCast] at hm hn
  have h1 := iter_add k m (n - m) data rm hm
  rw [show m + (n - m) = n by omega, hn] at h1
  obtain ⟨r, a1, a2, a3, a4, a5⟩ := iter_ok k m data hk.fits
  rw [hm] at a1
  cases a1
  obtain ⟨r', b1, b2, b3, b4, b5⟩ := iter_ok k (n - m) rm a4
  rw [← h1] at b1
  cases b1
  exact ⟨b5, h1.symm⟩

/-- C25: a missing point far from any valid one stays missing for one turn (the kernel decides how far it reaches) -/
theorem C25_unreached_stay (data r : LArr V) (spec : KSpec) (k : LArr ℚ) (hk : ErodeKernel data spec k) (hn : KNonneg k)
    (hr : erodeMaskN data 1 spec = .ok r) (p : List Nat) (hp : InShape data.shape p) (h0 : data.val p = none)
    (hq : ¬ ∃ q, Available data k p q) : r.val p = none := by
  obtain ⟨d, hd, ht⟩ := turn_ok data k hk.fits
  have : r = d := by
    unfold erodeMaskN at hr
    simp only [hk.made, bind, Except.bind] at hr
    rw [show (1 : Int).toNat = 0 + 1 from rfl, erodeIter_succ k 0 data d hd] at hr
    cases hr; rfl
  subst this
  exact ht.none hn p hp h0 hq

/-! ### the default kernel meets the hypotheses -/

theorem look_lt (l : List String) (S : String → Nat) (j : List Nat) (h : InShape (l.map S) j) (d : String) (hd : d ∈ l) : look l j d < S d := by
  induction l generalizing j with
  | nil => simp at hd
  | cons a l ih =>
    cases j with
    | nil => simp [InShape] at h
    | cons i is =>
      obtain ⟨h1, h2⟩ := h
      unfold look
      split
      · rename_i h3; rw [h3]; exact h1
      · rename_i h3
        exact ih is h2 (by simpa [h3] using hd)

theorem transposed_val {α} (k r : LArr α) (hk : k.Ok) (dims : List String) (ns : String → Nat) (ht : Transposed k r dims ns) (j : List Nat) (hj : InShape r.shape j) :
    InShape k.shape (k.dims.map (look dims j)) ∧ r.val j = k.val (k.dims.map (look dims j)) := by
  have hl : j.length = dims.length := by rw [inShape_length _ _ hj, ht.ok.len, ht.dims]
  have hn : dims.Nodup := by rw [← ht.dims]; exact ht.ok.nodup
  have h1 := ht.vals (look dims j)
  unfold LArr.at at h1
  rw [ht.dims, map_look dims j hn hl] at h1
  refine ⟨?_, h1⟩
  rw [shape_eq k hk]
  apply inShape_map
  intro d hd
  obtain ⟨h2, h3⟩ := ht.sizes d hd
  rw [← h3]
  have hsh := shape_eq r ht.ok
  rw [ht.dims] at hsh
  rw [hsh] at hj
  exact look_lt dims r.size j hj d h2

theorem shapiro_ok (dims : List String) (h : dims.Nodup) : (shapiroKernel dims).Ok := ⟨h, by simp [shapiroKernel]⟩

/-- the default kernel, for data with the horizontal dimensions `ydim` and `xdim` -/
theorem shapiro_erode (data : LArr V) (hd : data.Ok) (ydim xdim : String) (hne : ydim ≠ xdim) (hy : ydim ∈ data.dims) (hx : xdim ∈ data.dims) :
    ∃ k, ErodeKernel data (.da (shapiroKernel [ydim, xdim])) k ∧ KNonneg k ∧
      Transposed (shapiroKernel [ydim, xdim]) k data.dims (newSize .insert (fun _ => none)) := by
  have hok := shapiro_ok [ydim, xdim] (by simp [hne])
  obtain ⟨k, h1, ht⟩ := generateKernel_da onesWindow 0 (shapiroKernel [ydim, xdim]) hok data.dims hd.nodup
    (by intro d h; simp only [shapiroKernel, List.mem_cons, List.not_mem_nil, or_false] at h; rcases h with rfl | rfl <;> assumption)
  have hlen : 2 ≤ data.dims.length := by
    have : [ydim, xdim].Subperm data.dims := List.subperm_of_subset (by simp [hne]) (by intro d h; simp at h; rcases h with rfl | rfl <;> assumption)
    exact this.length_le
  have hkd : (kDims k).length ≤ 2 := by
    have hsub : (kDims k).Subperm [ydim, xdim] := by
      refine List.subperm_of_subset (ht.ok.nodup.filter _) ?_
      intro d h
      unfold kDims at h
      rw [List.mem_filter, ht.dims] at h
      by_contra hc
      have := ht.new d h.1 hc
      simp [newSize] at this
      simp [this] at h
    exact hsub.length_le
  refine ⟨k, ⟨?_, hd, ht.ok, ht.dims⟩, ?_, ht⟩
  · unfold erodeKernel
    rw [if_neg (by omega)]
    simp only [h1, bind, Except.bind]
    rw [if_neg (by omega)]
  · intro j hj
    obtain ⟨h2, h3⟩ := transposed_val _ k hok data.dims _ ht j hj
    rw [h3]
    exact ((C27_shapiro [ydim, xdim]).2.2 _ h2).2.1

/-- C25 with the default kernel and any data with two horizontal dimensions -/
theorem C25_default (data : LArr V) (hd : data.Ok) (ydim xdim : String) (hne : ydim ≠ xdim) (hy : ydim ∈ data.dims) (hx : xdim ∈ data.dims) (n : Int) :
    ∃ r, erodeMaskN data n (.da (shapiroKernel [ydim, xdim])) = .ok r ∧ r.dims = data.dims ∧ r.shape = data.shape ∧
      (∀ p v, data.val p = some v → r.val p = some v) ∧
      ∀ lo hi, (∀ q v, InShape data.shape q → data.val q = some v → lo ≤ v ∧ v ≤ hi) →
        ∀ q v, InShape data.shape q → r.val q = some v → lo ≤ v ∧ v ≤ hi := by
  obtain ⟨k, h1, h2, -⟩ := shapiro_erode data hd ydim xdim hne hy hx
  obtain ⟨r, a, b, c, e⟩ := C25_valid_kept data _ k h1 n
  exact ⟨r, a, b, c, e, fun lo hi hb => C25_bounds data r _ k h1 h2 n a lo hi hb⟩

/-- 2-D data for the examples -/
def eData (l : List (List V)) : LArr V := ⟨["y", "x"], [l.length, (l.headD []).length], fun idx => (l.getD (idx.getD 0 0) []).getD (idx.getD 1 0) none⟩
example : fVals (erodeMaskN (eData [[some 1, none, none], [none, none, some 9]]) 1 (.da (shapiroKernel ["y", "x"]))) =
    some [some 1, some 1, some 9, some 1, some 9, some 9] := by decide +kernel

/-- C25, C26: a kernel of size other than 1 along more than two dimensions is refused -/
theorem C25_kernel_refused (data : LArr V) (n : Int) (mask : LArr Bool) (fuel : Nat) (spec : KSpec) (k : LArr ℚ) (hd : 2 ≤ data.dims.length)
    (hk : generateKernel onesWindow 0 spec data.dims = .ok k) (ds : List String) (h1 : ds.Nodup) (h2 : ∀ d ∈ ds, d ∈ k.dims ∧ k.size d ≠ 1) (h3 : 2 < ds.length) :
    erodeMaskN data n spec = .error .xoaError ∧ ∀ e, transposeTo mask (data.dims.map some) (fun _ => none) .compat = .ok e →
      erodeMaskUntil data mask spec fuel = some (.error .xoaError) := by
  have hl : 2 < (kDims k).length := by
    refine lt_of_lt_of_le h3 ?_
    refine (List.subperm_of_subset h1 ?_).length_le
    intro d hd'
    unfold kDims
    rw [List.mem_filter]
    exact ⟨(h2 d hd').1, by simpa using (h2 d hd').2⟩
  have he : erodeKernel data spec = .error .xoaError := by
    unfold erodeKernel
    rw [if_neg (by omega), hk]
    simp only [bind, Except.bind, if_pos hl]
  refine ⟨by unfold erodeMaskN; rw [he]; rfl, ?_⟩
  intro e hm
  unfold erodeMaskUntil
  rw [if_neg (by omega)]
  split
  · rfl
  · rw [hm, he]

-- a kernel along three dimensions
example : (generateKernel onesWindow 0 (.nd ⟨[3, 3, 3], fun _ => 1⟩) ["t", "y", "x"]).toOption.map (fun k => (k.dims, k.shape)) =
    some (["t", "y", "x"], [3, 3, 3]) := by decide +kernel

/-- C25: fewer than two dimensions are refused -/
theorem C25_refused (data : LArr V) (n : Int) (spec : KSpec) (h : data.dims.length < 2) : erodeMaskN data n spec = .error .xoaError := by
  unfold erodeMaskN erodeKernel
  rw [if_pos h]
  rfl

/-! ## C26 -/

/-- the loop ends with the data `d` -/
def Ends (mask : LArr Bool) (k : LArr ℚ) (d : LArr V) : Prop := ¬ orCount mask (reduceMask d (kDims k)) > maskCount mask

theorem until_none (k : LArr ℚ) (mask : LArr Bool) (fuel : Nat) : ∀ data, Fits data k →
    (erodeUntil k mask fuel data = none ↔ ∀ n r, 1 ≤ n → n ≤ fuel → erodeIter k n data = .ok r → ¬ Ends mask k r) := by
  induction fuel with
  | zero =>
    intro data _
    simp only [erodeUntil, true_iff]
    intro n r h1 h2
    omega
  | succ fuel ih =>
    intro data h
    obtain ⟨d, hd, ht⟩ := turn_ok data k h
    have hf := fill_fits h ht.dims ht.shape
    have h1 : erodeIter k 1 data = .ok d := by rw [erodeIter_succ k 0 data d hd]; rfl
    unfold erodeUntil
    simp only [hd]
    split
    · rename_i hc
      rw [ih d hf]
      constructor
      · intro hall n r hn1 hn2 hr
        obtain ⟨n, rfl⟩ : ∃ m, n = m + 1 := ⟨n - 1, by omega⟩
        cases n with
        | zero =>
          rw [Nat.zero_add, h1] at hr
          cases hr
          exact fun he => he hc
        | succ n =>
          rw [erodeIter_succ k _ data d hd] at hr
          exact hall (n + 1) r (by omega) (by omega) hr
      · intro hall n r hn1 hn2 hr
        exact hall (n + 1) r (by omega) (by omega) (by rw [erodeIter_succ k n data d hd]; exact hr)
    · rename_i hc
      constructor
      · intro h'; cases h'
      · intro hall
        exact absurd hc (hall 1 d (by omega) (by omega) h1)

theorem until_some (k : LArr ℚ) (mask : LArr Bool) (fuel : Nat) : ∀ data out, Fits data k → erodeUntil k mask fuel data = some out →
    ∃ n r, 1 ≤ n ∧ n ≤ fuel ∧ out = .ok r ∧ erodeIter k n data = .ok r ∧ Ends mask k r ∧
      ∀ m r', 1 ≤ m → m < n → erodeIter k m data = .ok r' → ¬ Ends mask k r' := by
  induction fuel with
  | zero => intro data out _ h; simp [erodeUntil] at h
  | succ fuel ih =>
    intro data out h hout
    obtain ⟨d, hd, ht⟩ := turn_ok data k h
    have hf := fill_fits h ht.dims ht.shape
    have h1 : erodeIter k 1 data = .ok d := by rw [erodeIter_succ k 0 data d hd]; rfl
    unfold erodeUntil at hout
    simp only [hd] at hout
    split at hout
    · rename_i hc
      obtain ⟨n, r, a1, a2, a3, a4, a5, a6⟩ := ih d out hf hout
      refine ⟨n + 1, r, by omega, by omega, a3, by rw [erodeIter_succ k n data d hd]; exact a4, a5, ?_⟩
      intro m r' hm1 hm2 hr'
      obtain ⟨m, rfl⟩ : ∃ m', m = m' + 1 := ⟨m - 1, by omega⟩
      cases m with
      | zero =>
        rw [Nat.zero_add, h1] at hr'
        cases hr'
        exact fun he => he hc
      | succ m =>
        rw [erodeIter_succ k _ data d hd] at hr'
        exact a6 (m + 1) r' (by omega) (by omega) hr'
    · rename_i hc
      cases hout
      exact ⟨1, d, le_refl _, by omega, rfl, h1, hc, fun m _ h1 h2 => by omega⟩

/-! ### when the loop ends -/

theorem countP_or_gt {α} (l : List α) (a b : α → Bool) : (l.countP a < l.countP (fun x => a x || b x)) ↔ ∃ x ∈ l, a x = false ∧ b x = true := by
  have hle : ∀ l : List α, l.countP a ≤ l.countP (fun x => a x || b x) := fun l =>
    List.countP_mono_left (fun x _ h => by simp [h])
  induction l with
  | nil => simp
  | cons y l ih =>
    have := hle l
    simp only [List.countP_cons, List.mem_cons, exists_eq_or_imp, ← ih]
    cases ha : a y <;> cases hb : b y <;> simp <;> omega

/-- the mask at a position of the data -/
def maskAt (mask : LArr Bool) (data : LArr V) (p : List Nat) : Bool := mask.val (mask.dims.map (look data.dims p))

/-- the mask has the dimensions of the data along which the kernel works, with the same sizes -/
structure HorizMask (mask : LArr Bool) (data : LArr V) (k : LArr ℚ) : Prop where
  dims : mask.dims = data.dims.filter (· ∈ kDims k)
  shape : mask.shape = mask.dims.map data.size

theorem ends_iff (mask : LArr Bool) (data d : LArr V) (k : LArr ℚ) (hd : data.Ok) (hm : HorizMask mask data k) (h1 : d.dims = data.dims) (h2 : d.shape = data.shape) :
    Ends mask k d ↔ ∀ p, InShape data.shape p → maskAt mask data p = false → d.val p ≠ none := by
  have hdk : d.Ok := ⟨by rw [h1]; exact hd.nodup, by rw [h1, h2]; exact hd.len⟩
  have hsz : d.size = data.size := by funext x; unfold LArr.size; rw [h1, h2]
  have hnm : mask.dims.Nodup := by rw [hm.dims]; exact hd.nodup.filter _
  have hrd : (reduceMask d (kDims k)).dims = mask.dims := by
    show d.dims.filter (· ∈ kDims k) = _
    rw [hm.dims, h1]
  have hmok : mask.Ok := ⟨hnm, by rw [hm.shape]; simp⟩
  have hcount : orCount mask (reduceMask d (kDims k)) =
      (positions mask.shape).countP (fun idx => mask.val idx || (reduceMask d (kDims k)).val idx) := by
    unfold orCount
    rw [hrd]
    have e1 : mask.dims.filter (· ∉ mask.dims) = [] := by
      rw [List.filter_eq_nil_iff]; intro x hx; simp [hx]
    simp only [e1, List.append_nil]
    have e2 : mask.dims.map (fun d_1 => if d_1 ∈ mask.dims then mask.size d_1 else (reduceMask d (kDims k)).size d_1) = mask.shape := by
      rw [shape_eq mask hmok]
      apply List.map_congr_left
      intro x hx
      rw [if_pos hx]
    rw [e2]
    apply List.countP_congr
    intro idx hidx
    have hl : idx.length = mask.dims.length := by
      rw [inShape_length _ _ ((mem_positions _ _).1 hidx), hmok.len]
    rw [map_look mask.dims idx hnm hl]
  unfold Ends maskCount
  rw [hcount, gt_iff_lt, countP_or_gt, not_exists]
  have key : ∀ idx, InShape mask.shape idx →
      ((reduceMask d (kDims k)).val idx = true ↔ ∃ p, InShape data.shape p ∧ mask.dims.map (look data.dims p) = idx ∧ d.val p = none) := by
    intro idx hidx
    unfold reduceMask
    dsimp only
    rw [List.any_eq_true, hsz, h1]
    have hk : data.dims.filter (· ∈ kDims k) = mask.dims := hm.dims.symm
    rw [hk]
    set red := data.dims.filter (· ∉ kDims k) with hred
    have hl : idx.length = mask.dims.length := by rw [inShape_length _ _ hidx, hmok.len]
    have hmem : ∀ x, x ∈ data.dims → x ∈ mask.dims ∨ x ∈ red := by
      intro x hx
      rw [hm.dims, hred, List.mem_filter, List.mem_filter]
      by_cases h : x ∈ kDims k <;> simp [hx, h]
    have hdisj : ∀ x, x ∈ red → x ∉ mask.dims := by
      intro x hx
      rw [hm.dims, List.mem_filter]
      rw [hred, List.mem_filter] at hx
      simp at hx
      simp [hx.2]
    constructor
    · rintro ⟨rr, hrr, hn⟩
      have hrr' := (mem_positions _ _).1 hrr
      have hrl : rr.length = red.length := by rw [inShape_length _ _ hrr', List.length_map]
      refine ⟨data.dims.map (look (mask.dims ++ red) (idx ++ rr)), ?_, ?_, by simpa using hn⟩
      · rw [shape_eq data hd]
        apply inShape_map
        intro x hx
        rcases hmem x hx with h | h
        · rw [look_append_left _ _ _ _ _ hl h]
          rw [hm.shape] at hidx
          exact look_lt mask.dims data.size idx hidx x h
        · rw [look_append_right _ _ _ _ _ hl (hdisj x h)]
          exact look_lt red data.size rr hrr' x h
      · have : ∀ x ∈ mask.dims, look data.dims (data.dims.map (look (mask.dims ++ red) (idx ++ rr))) x = look mask.dims idx x := by
          intro x hx
          have hxd : x ∈ data.dims := by rw [hm.dims] at hx; exact (List.mem_filter.1 hx).1
          rw [look_map _ _ _ hxd, look_append_left _ _ _ _ _ hl hx]
        rw [List.map_congr_left this, map_look mask.dims idx hnm hl]
    · rintro ⟨p, hp, hpi, hn⟩
      have hpl : p.length = data.dims.length := by rw [inShape_length _ _ hp, hd.len]
      have hp' := hp
      rw [shape_eq data hd] at hp'
      refine ⟨red.map (look data.dims p), (mem_positions _ _).2 ?_, ?_⟩
      · apply inShape_map
        intro x hx
        exact look_lt data.dims data.size p hp' x (List.mem_filter.1 hx).1
      · have : data.dims.map (look (mask.dims ++ red) (idx ++ red.map (look data.dims p))) = p := by
          have e : ∀ x ∈ data.dims, look (mask.dims ++ red) (idx ++ red.map (look data.dims p)) x = look data.dims p x := by
            intro x hx
            rcases hmem x hx with h | h
            · rw [look_append_left _ _ _ _ _ hl h, ← hpi, look_map _ _ _ h]
            · rw [look_append_right _ _ _ _ _ hl (hdisj x h), look_map _ _ _ h]
          rw [List.map_congr_left e, map_look data.dims p hd.nodup hpl]
        rw [this, hn]
        rfl
  constructor
  · intro h p hp hmp hn
    have hp' := hp
    rw [shape_eq data hd] at hp'
    have hidx : InShape mask.shape (mask.dims.map (look data.dims p)) := by
      rw [hm.shape]
      apply inShape_map
      intro x hx
      rw [hm.dims] at hx
      exact look_lt data.dims data.size p hp' x (List.mem_filter.1 hx).1
    exact h _ ⟨(mem_positions _ _).2 hidx, hmp, (key _ hidx).2 ⟨p, hp, rfl, hn⟩⟩
  · rintro h idx ⟨a, b, c⟩
    obtain ⟨p, hp, hpi, hn⟩ := (key idx ((mem_positions _ _).1 a)).1 c
    refine h p hp ?_ hn
    unfold maskAt
    rw [hpi]
    exact b

end Xoa
