import Verif.ErodeProps

namespace Xoa

/-! ## C26: erosion down to a mask -/

/-- the target mask has the dimensions along which the kernel works, in any order, with the sizes of the data -/
structure TargetMask (mask : LArr Bool) (data : LArr V) (k : LArr ℚ) : Prop where
  ok : mask.Ok
  dims : ∀ d, d ∈ mask.dims ↔ d ∈ kDims k
  sizes : ∀ d ∈ mask.dims, mask.size d = data.size d

theorem kDims_sub (data : LArr V) (k : LArr ℚ) (h : Fits data k) (d : String) (hd : d ∈ kDims k) : d ∈ data.dims := by
  rw [← h.dims]
  exact (List.mem_filter.1 hd).1

theorem until_eq (data : LArr V) (spec : KSpec) (k : LArr ℚ) (hk : ErodeKernel data spec k) (mask : LArr Bool) (hm : TargetMask mask data k) :
    ∃ mask', HorizMask mask' data k ∧ (∀ p, maskAt mask' data p = maskAt mask data p) ∧
      ∀ fuel, erodeMaskUntil data mask spec fuel = erodeUntil k mask' fuel data := by
  have h2 : ¬ data.dims.length < 2 := by
    intro hc
    have := hk.made
    unfold erodeKernel at this
    rw [if_pos hc] at this
    cases this
  have hsub : ∀ d ∈ mask.dims, d ∈ data.dims := fun d hd => kDims_sub data k hk.fits d ((hm.dims d).1 hd)
  obtain ⟨m, hr, ht⟩ := C17_transpose mask hm.ok data.dims hk.fits.dok.nodup (fun _ => none) .compat (by decide)
  rw [← newSize_asked] at ht
  have hfull : mask.dims.filter (fun d => d ∉ data.dims) ++ wanted mask .compat data.dims = data.dims.filter (· ∈ mask.dims) := by
    have e1 : mask.dims.filter (fun d => d ∉ data.dims) = [] := by
      rw [List.filter_eq_nil_iff]; intro d hd; simp [hsub d hd]
    rw [e1, List.nil_append]
    simp [wanted]
  rw [hfull] at ht
  have hmd : m.dims = data.dims.filter (· ∈ kDims k) := by
    rw [ht.dims]
    apply List.filter_congr
    intro d _
    simp [hm.dims d]
  refine ⟨m, ⟨hmd, ?_⟩, ?_, ?_⟩
  · rw [shape_eq m ht.ok]
    apply List.map_congr_left
    intro d hd
    have : d ∈ mask.dims := by
      rw [hmd] at hd
      exact (hm.dims d).2 (by simpa using (List.mem_filter.1 hd).2)
    rw [(ht.sizes d this).2, hm.sizes d this]
  · intro p
    exact ht.vals (look data.dims p)
  · intro fuel
    unfold erodeMaskUntil
    rw [if_neg h2, if_neg (by rintro ⟨d, a, b⟩; exact b (hsub d a))]
    simp only [hr, hk.made]

/-- all the points that the target does not mask are valid -/
def Reaches (mask : LArr Bool) (data d : LArr V) : Prop :=
  ∀ p, InShape data.shape p → maskAt mask data p = false → ∃ v, d.val p = some v

/-- C26: when `erode_mask` returns, its result is what the smallest number of turns (at least one) gives such that all the points
that the target does not mask are valid. -/
theorem C26_result (data : LArr V) (spec : KSpec) (k : LArr ℚ) (hk : ErodeKernel data spec k) (mask : LArr Bool) (hm : TargetMask mask data k)
    (fuel : Nat) (out : Except CErr (LArr V)) (h : erodeMaskUntil data mask spec fuel = some out) :
    ∃ n r, 1 ≤ n ∧ n ≤ fuel ∧ out = .ok r ∧ erodeMaskN data n spec = .ok r ∧ Reaches mask data r ∧
      ∀ m r', 1 ≤ m → m < n → erodeMaskN data m spec = .ok r' → ¬ Reaches mask data r' := by
  obtain ⟨mask', hh, hat, heq⟩ := until_eq data spec k hk mask hm
  rw [heq] at h
  have conv : ∀ n : Nat, erodeMaskN data n spec = erodeIter k n data := by
    intro n
    unfold erodeMaskN
    simp only [hk.made, bind, Except.bind, Int.toNat_natCast]
  have hre : ∀ (n : Nat) (r : LArr V), erodeIter k n data = .ok r → (Ends mask' k r ↔ Reaches mask data r) := by
    intro n r hr
    obtain ⟨r', a1, a2, a3, -⟩ := iter_ok k n data hk.fits
    rw [hr] at a1
    cases a1
    rw [ends_iff mask' data r k hk.fits.dok hh a2 a3]
    unfold Reaches
    constructor
    · intro h p hp hmp
      exact Option.ne_none_iff_exists'.1 (h p hp (by rw [hat]; exact hmp))
    · intro h p hp hmp
      obtain ⟨v, hv⟩ := h p hp (by rw [← hat]; exact hmp)
      rw [hv]; simp
  obtain ⟨n, r, a1, a2, a3, a4, a5, a6⟩ := until_some k mask' fuel data out hk.fits h
  refine ⟨n, r, a1, a2, a3, by rw [conv]; exact a4, (hre n r a4).1 a5, ?_⟩
  intro m r' h1 h2 h3 h4
  rw [conv] at h3
  exact a6 m r' h1 h2 h3 ((hre m r' h3).2 h4)

/-- C26: the loop is over after `fuel` turns if and only if some number of turns between 1 and `fuel` makes valid all the points that
the target does not mask. -/
theorem C26_returns_iff (data : LArr V) (spec : KSpec) (k : LArr ℚ) (hk : ErodeKernel data spec k) (mask : LArr Bool) (hm : TargetMask mask data k)
    (fuel : Nat) :
    (erodeMaskUntil data mask spec fuel).isSome ↔ ∃ n r, 1 ≤ n ∧ n ≤ fuel ∧ erodeMaskN data n spec = .ok r ∧ Reaches mask data r := by
  obtain ⟨mask', hh, hat, heq⟩ := until_eq data spec k hk mask hm
  constructor
  · intro h
    obtain ⟨out, ho⟩ := Option.isSome_iff_exists.1 h
    obtain ⟨n, r, a1, a2, a3, a4, a5, a6⟩ := C26_result data spec k hk mask hm fuel out ho
    exact ⟨n, r, a1, a2, a4, a5⟩
  · rintro ⟨n, r, h1, h2, h3, h4⟩
    by_contra hc
    have hnone : erodeMaskUntil data mask spec fuel = none := by
      cases h : erodeMaskUntil data mask spec fuel with
      | none => rfl
      | some x => rw [h] at hc; simp at hc
    rw [heq, until_none k mask' fuel data hk.fits] at hnone
    have h3' : erodeIter k n data = .ok r := by
      unfold erodeMaskN at h3
      simp only [hk.made, bind, Except.bind, Int.toNat_natCast] at h3
      exact h3
    obtain ⟨r', a1, a2, a3, -⟩ := iter_ok k n data hk.fits
    rw [h3'] at a1
    cases a1
    refine hnone n r h1 h2 h3' ?_
    rw [ends_iff mask' data r k hk.fits.dok hh a2 a3]
    intro p hp hmp
    obtain ⟨v, hv⟩ := h4 p hp (by rw [← hat]; exact hmp)
    rw [hv]; simp

/-! ### points that are reached -/

/-- the values of valid points flow to the point, from neighbour to neighbour, with weights of more than one millionth of the kernel -/
inductive Reached (data : LArr V) (k : LArr ℚ) : List Nat → Prop
  | valid (p : List Nat) (v : ℚ) : InShape data.shape p → data.val p = some v → Reached data k p
  | step (p q : List Nat) : InShape data.shape p → Reached data k q → 1 / 1000000 * kSum k < kAt k p q → Reached data k p

theorem reached_iter (data : LArr V) (k : LArr ℚ) (h : Fits data k) (hk : KNonneg k) (p : List Nat) (hp : Reached data k p) :
    InShape data.shape p ∧ ∃ n, ∀ m r, n ≤ m → erodeIter k m data = .ok r → ∃ v, r.val p = some v := by
  induction hp with
  | valid p v h1 h2 =>
    refine ⟨h1, 0, ?_⟩
    intro m r _ hr
    obtain ⟨r', a1, a2, a3, a4, a5⟩ := iter_ok k m data h
    rw [hr] at a1; cases a1
    exact ⟨v, a5 p v h2⟩
  | step p q h1 h2 h3 ih =>
    obtain ⟨hq, n, hn⟩ := ih
    refine ⟨h1, n + 1, ?_⟩
    intro m r hm hr
    obtain ⟨r1, a1, a2, a3, a4, a5⟩ := iter_ok k (m - 1) data h
    have := iter_add k (m - 1) 1 data r1 a1
    rw [show m - 1 + 1 = m by omega, hr] at this
    obtain ⟨d, hd, ht⟩ := turn_ok r1 k a4
    rw [show (1 : Nat) = 0 + 1 from rfl, erodeIter_succ k 0 r1 d hd] at this
    cases this
    have htol : (0 : ℚ) ≤ 1 / 1000000 * kSum k := mul_nonneg (by norm_num) (kSum_nonneg k hk)
    refine ht.reach hk p q (by rw [a3]; exact h1) ⟨by rw [a3]; exact hq, hn (m - 1) r1 (by omega) a1, lt_of_le_of_lt htol h3⟩ h3

/-- C26, partial: with a nonnegative kernel, `erode_mask` returns whenever the valid data reach all the points that the target does not mask, and
these points are valid in its result. Missing: when the valid data cannot reach some of them, e.g. when all the data are
missing, it never returns (`C26_all_missing_violated`). -/
theorem C26_terminates_partial (data : LArr V) (spec : KSpec) (k : LArr ℚ) (hk : ErodeKernel data spec k) (hn : KNonneg k) (mask : LArr Bool)
    (hm : TargetMask mask data k) (hr : ∀ p, InShape data.shape p → maskAt mask data p = false → Reached data k p) :
    ∃ N, ∀ fuel, N ≤ fuel → ∃ r, erodeMaskUntil data mask spec fuel = some (.ok r) ∧ Reaches mask data r := by
  have hN : ∀ l : List (List Nat), (∀ p ∈ l, InShape data.shape p) → ∃ N, ∀ p ∈ l, maskAt mask data p = false →
      ∀ m r, N ≤ m → erodeIter k m data = .ok r → ∃ v, r.val p = some v := by
    intro l
    induction l with
    | nil => intro _; exact ⟨0, by simp⟩
    | cons a l ih =>
      intro hl
      obtain ⟨N, h1⟩ := ih (fun p hp => hl p (by simp [hp]))
      by_cases ha : maskAt mask data a = false
      · obtain ⟨-, n, h2⟩ := reached_iter data k hk.fits hn a (hr a (hl a (by simp)) ha)
        refine ⟨max N n, ?_⟩
        intro p hp hmp m r hm' hr'
        rcases List.mem_cons.1 hp with rfl | hp
        · exact h2 m r (by omega) hr'
        · exact h1 p hp hmp m r (by omega) hr'
      · refine ⟨N, ?_⟩
        intro p hp hmp m r hm' hr'
        rcases List.mem_cons.1 hp with rfl | hp
        · exact absurd hmp ha
        · exact h1 p hp hmp m r hm' hr'
  obtain ⟨N, h1⟩ := hN (positions data.shape) (fun p hp => (mem_positions _ _).1 hp)
  refine ⟨N + 1, ?_⟩
  intro fuel hf
  obtain ⟨r, a1, a2, a3, a4, a5⟩ := iter_ok k (N + 1) data hk.fits
  have hs : (erodeMaskUntil data mask spec fuel).isSome := by
    rw [C26_returns_iff data spec k hk mask hm fuel]
    refine ⟨N + 1, r, by omega, hf, ?_, ?_⟩
    · unfold erodeMaskN
      simp only [hk.made, bind, Except.bind, Int.toNat_natCast]
      exact a1
    · intro p hp hmp
      exact h1 p ((mem_positions _ _).2 hp) hmp (N + 1) r (by omega) a1
  obtain ⟨out, ho⟩ := Option.isSome_iff_exists.1 hs
  obtain ⟨n, r, b1, b2, b3, b4, b5, b6⟩ := C26_result data spec k hk mask hm fuel out ho
  exact ⟨r, by rw [ho, b3], b5⟩

/-! ### the loop never ends when nothing is valid -/

theorem iter_all_missing (k : LArr ℚ) (hk : KNonneg k) (n : Nat) : ∀ (data r : LArr V), Fits data k → (∀ p, InShape data.shape p → data.val p = none) →
    erodeIter k n data = .ok r → ∀ p, InShape data.shape p → r.val p = none := by
  induction n with
  | zero => intro data r _ h hr; cases hr; exact h
  | succ n ih =>
    intro data r hf h hr
    obtain ⟨d, hd, ht⟩ := turn_ok data k hf
    rw [erodeIter_succ k n data d hd] at hr
    have := ih d r (fill_fits hf ht.dims ht.shape) (by
      intro p hp
      rw [ht.shape] at hp
      refine ht.none hk p hp (h p hp) ?_
      rintro ⟨q, h1, ⟨v, h2⟩, -⟩
      rw [h q h1] at h2
      cases h2) hr
    rw [ht.shape] at this
    exact this

/-- C26 is false when all the data are missing: as soon as one point is not masked by the target, `erode_mask` never returns. -/
theorem C26_all_missing_violated (data : LArr V) (spec : KSpec) (k : LArr ℚ) (hk : ErodeKernel data spec k) (hn : KNonneg k) (mask : LArr Bool)
    (hm : TargetMask mask data k) (hall : ∀ p, InShape data.shape p → data.val p = none) (p0 : List Nat) (h0 : InShape data.shape p0)
    (hp0 : maskAt mask data p0 = false) (fuel : Nat) : erodeMaskUntil data mask spec fuel = none := by
  by_contra hc
  have hs := (C26_returns_iff data spec k hk mask hm fuel).1 (by
    cases h : erodeMaskUntil data mask spec fuel with
    | none => exact absurd h hc
    | some x => rfl)
  obtain ⟨n, r, h1, h2, h3, h4⟩ := hs
  unfold erodeMaskN at h3
  simp only [hk.made, bind, Except.bind, Int.toNat_natCast] at h3
  obtain ⟨v, hv⟩ := h4 p0 h0 hp0
  rw [iter_all_missing k hn n data r hk.fits hall h3 p0 h0] at hv
  cases hv

/-! ### the number of turns -/

/-- number of missing data -/
def nMissing (data : LArr V) : Nat := (positions data.shape).countP (fun p => (data.val p).isNone)

/-- same values inside the array -/
def SameIn (a b : LArr V) : Prop := a.shape = b.shape ∧ ∀ p, InShape a.shape p → a.val p = b.val p

theorem turn_same (k : LArr ℚ) (a b a' b' : LArr V) (ha : Fits a k) (hb : Fits b k) (h : SameIn a b) (h1 : convolveFill a k = .ok a') (h2 : convolveFill b k = .ok b') :
    SameIn a' b' := by
  obtain ⟨c, d, hc, hd, e1, e2, e3⟩ := fill_ok a k ha
  obtain ⟨c', d', hc', hd', f1, f2, f3⟩ := fill_ok b k hb
  rw [h1] at hd; rw [h2] at hd'
  cases hd; cases hd'
  refine ⟨by rw [e2, f2, h.1], ?_⟩
  intro p hp
  rw [e2] at hp
  rw [e3 p, f3 p, h.2 p hp]
  have : c.val p = c'.val p := by
    refine C24_footprint a b c c' k true hc hc' h.1 p (fun q hq _ => h.2 q hq) ?_
    constructor
    · rintro ⟨q, h3, h4⟩; exact ⟨q, by rw [← h.1]; exact h3, by rw [← h.2 q h3]; exact h4⟩
    · rintro ⟨q, h3, h4⟩; rw [← h.1] at h3; exact ⟨q, h3, by rw [h.2 q h3]; exact h4⟩
  rw [this]

theorem countP_lt_of {α} (l : List α) (a b : α → Bool) (hab : ∀ x ∈ l, b x = true → a x = true) (x : α) (hx : x ∈ l) (h1 : a x = true) (h2 : b x = false) :
    l.countP b < l.countP a := by
  have : l.countP a = l.countP (fun x => b x || a x) := by
    apply List.countP_congr
    intro y hy
    cases hb : b y
    · simp
    · simp [hab y hy hb]
  rw [this, countP_or_gt]
  exact ⟨x, hx, h2, h1⟩

/-- a turn that fills nothing changes nothing; otherwise there are fewer missing data -/
theorem turn_progress (k : LArr ℚ) (data d : LArr V) (ht : Turn k data d) : SameIn data d ∨ nMissing d < nMissing data := by
  by_cases h : ∃ p, InShape data.shape p ∧ data.val p = none ∧ d.val p ≠ none
  · right
    obtain ⟨p, h1, h2, h3⟩ := h
    unfold nMissing
    rw [ht.shape]
    refine countP_lt_of _ _ _ ?_ p ((mem_positions _ _).2 h1) (by simp [h2]) (by cases hv : d.val p with | none => exact absurd hv h3 | some v => rfl)
    intro q _ hq
    cases hv : data.val q with
    | none => rfl
    | some v => rw [ht.keep q v hv] at hq; simp at hq
  · left
    refine ⟨ht.shape.symm, ?_⟩
    intro p hp
    cases hv : data.val p with
    | some v => exact (ht.keep p v hv).symm
    | none =>
      by_contra hc
      exact h ⟨p, hp, hv, fun h => hc h.symm⟩

theorem iter_same (k : LArr ℚ) (n : Nat) : ∀ (a b ra rb : LArr V), Fits a k → Fits b k → SameIn a b → erodeIter k n a = .ok ra → erodeIter k n b = .ok rb → SameIn ra rb := by
  induction n with
  | zero => intro a b ra rb _ _ h h1 h2; cases h1; cases h2; exact h
  | succ n ih =>
    intro a b ra rb ha hb h h1 h2
    obtain ⟨d, hd, ht⟩ := turn_ok a k ha
    obtain ⟨d', hd', ht'⟩ := turn_ok b k hb
    rw [erodeIter_succ k n a d hd] at h1
    rw [erodeIter_succ k n b d' hd'] at h2
    exact ih d d' ra rb (fill_fits ha ht.dims ht.shape) (fill_fits hb ht'.dims ht'.shape) (turn_same k a b d d' ha hb h hd hd') h1 h2

theorem SameIn.symm {a b : LArr V} (h : SameIn a b) : SameIn b a := ⟨h.1.symm, fun p hp => (h.2 p (by rw [h.1]; exact hp)).symm⟩
theorem SameIn.trans {a b c : LArr V} (h : SameIn a b) (h' : SameIn b c) : SameIn a c :=
  ⟨h.1.trans h'.1, fun p hp => (h.2 p hp).trans (h'.2 p (by rw [← h.1]; exact hp))⟩

/-- when a turn changes nothing, no number of turns does -/
theorem iter_fixed (k : LArr ℚ) (data d : LArr V) (hf : Fits data k) (hd : convolveFill data k = .ok d) (h : SameIn data d) (n : Nat) :
    ∀ r, erodeIter k n data = .ok r → SameIn data r := by
  induction n with
  | zero => intro r hr; cases hr; exact ⟨rfl, fun _ _ => rfl⟩
  | succ n ih =>
    intro r hr
    obtain ⟨d', hd', ht⟩ := turn_ok data k hf
    rw [hd] at hd'; cases hd'
    rw [erodeIter_succ k n data d hd] at hr
    have hfd := fill_fits hf ht.dims ht.shape
    obtain ⟨r0, a1, a2, a3, a4, a5⟩ := iter_ok k n data hf
    exact (ih r0 a1).trans (iter_same k n data d r0 r hf hfd h a1 hr)

/-- after as many turns as there are missing data, more turns change nothing -/
theorem iter_stable (k : LArr ℚ) (n : Nat) : ∀ (data r r' : LArr V) (m m' : Nat), Fits data k → nMissing data ≤ n → n ≤ m → n ≤ m' →
    erodeIter k m data = .ok r → erodeIter k m' data = .ok r' → SameIn r r' := by
  induction n with
  | zero =>
    intro data r r' m m' hf h0 _ _ hr hr'
    obtain ⟨d, hd, ht⟩ := turn_ok data k hf
    rcases turn_progress k data d ht with h | h
    · exact (iter_fixed k data d hf hd h m r hr).symm.trans (iter_fixed k data d hf hd h m' r' hr')
    · omega
  | succ n ih =>
    intro data r r' m m' hf h0 hm hm' hr hr'
    obtain ⟨d, hd, ht⟩ := turn_ok data k hf
    rcases turn_progress k data d ht with h | h
    · exact (iter_fixed k data d hf hd h m r hr).symm.trans (iter_fixed k data d hf hd h m' r' hr')
    · obtain ⟨m, rfl⟩ : ∃ x, m = x + 1 := ⟨m - 1, by omega⟩
      obtain ⟨m', rfl⟩ : ∃ x, m' = x + 1 := ⟨m' - 1, by omega⟩
      rw [erodeIter_succ k m data d hd] at hr
      rw [erodeIter_succ k m' data d hd] at hr'
      exact ih d r r' m m' (fill_fits hf ht.dims ht.shape) (by omega) (by omega) (by omega) hr hr'

/-- C26, any kernel: either `erode_mask` returns within one turn more than there are missing data, or it never returns. -/
theorem C26_bound (data : LArr V) (spec : KSpec) (k : LArr ℚ) (hk : ErodeKernel data spec k) (mask : LArr Bool) (hm : TargetMask mask data k) :
    (∃ r, erodeMaskUntil data mask spec (nMissing data + 1) = some (.ok r)) ∨ ∀ fuel, erodeMaskUntil data mask spec fuel = none := by
  by_cases h : ∃ fuel, (erodeMaskUntil data mask spec fuel).isSome
  · left
    obtain ⟨fuel, hf⟩ := h
    obtain ⟨n, r, h1, h2, h3, h4⟩ := (C26_returns_iff data spec k hk mask hm fuel).1 hf
    have hs : (erodeMaskUntil data mask spec (nMissing data + 1)).isSome := by
      rw [C26_returns_iff data spec k hk mask hm]
      by_cases hn : n ≤ nMissing data + 1
      · exact ⟨n, r, h1, hn, h3, h4⟩
      · obtain ⟨r', a1, a2, a3, a4, a5⟩ := iter_ok k (nMissing data + 1) data hk.fits
        have hc : ∀ n : Nat, erodeMaskN data n spec = erodeIter k n data := by
          intro n
          unfold erodeMaskN
          simp only [hk.made, bind, Except.bind, Int.toNat_natCast]
        rw [hc] at h3
        refine ⟨nMissing data + 1, r', by omega, le_refl _, by rw [hc]; exact a1, ?_⟩
        have hsame := iter_stable k (nMissing data) data r r' n (nMissing data + 1) hk.fits (le_refl _) (by omega) (by omega) h3 a1
        intro p hp hmp
        obtain ⟨v, hv⟩ := h4 p hp hmp
        obtain ⟨r2, b1, b2, b3, -⟩ := iter_ok k n data hk.fits
        rw [h3] at b1; cases b1
        exact ⟨v, by rw [← hsame.2 p (by rw [b3]; exact hp)]; exact hv⟩
    obtain ⟨out, ho⟩ := Option.isSome_iff_exists.1 hs
    obtain ⟨n, r, b1, b2, b3, b4, b5, b6⟩ := C26_result data spec k hk mask hm _ out ho
    exact ⟨r, by rw [ho, b3]⟩
  · right
    intro fuel
    cases h' : erodeMaskUntil data mask spec fuel with
    | none => rfl
    | some x => exact absurd ⟨fuel, by rw [h']; rfl⟩ h

end Xoa
