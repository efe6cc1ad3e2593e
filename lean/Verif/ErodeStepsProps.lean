import Verif.ErodeDistProps

/-!
# C236: eroding in several calls

No new model. `erode_mask` (xoa/filter.py:576-645), with any kernel; the results are those of C25 and C26.
-/

namespace Xoa

/-- what is asked of the kernel and of the mask depends on the layout only -/
theorem erodeKernel_after {data r : LArr V} {spec : KSpec} {k : LArr ℚ} (hk : ErodeKernel data spec k) (h1 : r.dims = data.dims) (h2 : r.shape = data.shape) :
    ErodeKernel r spec k := ⟨by rw [erodeKernel_congr data r spec h1, hk.made], fill_fits hk.fits h1 h2⟩

theorem targetMask_after {mask : LArr Bool} {data r : LArr V} {k : LArr ℚ} (h : TargetMask mask data k) (h1 : r.dims = data.dims) (h2 : r.shape = data.shape) :
    TargetMask mask r k := ⟨h.ok, h.dims, fun d hd => by rw [h.sizes d hd]; unfold LArr.size; rw [h1, h2]⟩

theorem reaches_after {mask : LArr Bool} {data r d : LArr V} (h1 : r.dims = data.dims) (h2 : r.shape = data.shape) : Reaches mask r d ↔ Reaches mask data d := by
  unfold Reaches maskAt
  rw [h1, h2]

theorem erodeN_eq {data : LArr V} {spec : KSpec} {k : LArr ℚ} (hk : ErodeKernel data spec k) (n : Nat) : erodeMaskN data n spec = erodeIter k n data := by
  unfold erodeMaskN
  simp only [hk.made, bind, Except.bind, Int.toNat_natCast]

/-- **C236, turns.** `n` turns after `m` turns are `m + n` turns, whatever the kernel. -/
theorem C236_turns (data : LArr V) (spec : KSpec) (k : LArr ℚ) (hk : ErodeKernel data spec k) (m n : Nat) :
    ∃ r, erodeMaskN data m spec = .ok r ∧ erodeMaskN r n spec = erodeMaskN data ((m + n : Nat) : Int) spec := by
  obtain ⟨r, h1, h2, h3, -⟩ := C25_valid_kept data spec k hk m
  refine ⟨r, h1, ?_⟩
  rw [erodeN_eq (erodeKernel_after hk h2 h3) n, erodeN_eq hk, iter_add k m n data r (by rw [← erodeN_eq hk, h1])]

/-- **C236, no turn.** Asking for no turn, or for a negative number of turns, gives the data. -/
theorem C236_no_turn (data : LArr V) (spec : KSpec) (k : LArr ℚ) (hk : ErodeKernel data spec k) (n : Int) (hn : n ≤ 0) : erodeMaskN data n spec = .ok data := by
  unfold erodeMaskN
  simp only [hk.made, bind, Except.bind]
  rw [Int.toNat_of_nonpos hn]
  rfl

/-- **C236, two masks.** Eroding down to a mask, then down to another one, is eroding for the total number of turns; in the end all the points that one of the masks does not hide are valid. -/
theorem C236_masks (data : LArr V) (spec : KSpec) (k : LArr ℚ) (hk : ErodeKernel data spec k) (mask1 mask2 : LArr Bool) (hm1 : TargetMask mask1 data k) (hm2 : TargetMask mask2 data k)
    (fuel1 fuel2 : Nat) (r1 r2 : LArr V) (h1 : erodeMaskUntil data mask1 spec fuel1 = some (.ok r1)) (h2 : erodeMaskUntil r1 mask2 spec fuel2 = some (.ok r2)) :
    (∃ n1 n2 : Nat, 1 ≤ n1 ∧ 1 ≤ n2 ∧ erodeMaskN data n1 spec = .ok r1 ∧ erodeMaskN data ((n1 + n2 : Nat) : Int) spec = .ok r2) ∧
      Reaches mask1 data r2 ∧ Reaches mask2 data r2 := by
  obtain ⟨n1, r, a1, -, e, a3, a4, -⟩ := C26_result data spec k hk mask1 hm1 fuel1 _ h1
  cases e
  obtain ⟨r', b1, d1, d2, -⟩ := C25_valid_kept data spec k hk n1
  rw [a3] at b1; cases b1
  have hk1 := erodeKernel_after hk d1 d2
  obtain ⟨n2, r, b1, -, e, b3, b4, -⟩ := C26_result r1 spec k hk1 mask2 (targetMask_after hm2 d1 d2) fuel2 _ h2
  cases e
  obtain ⟨r', c1, c2⟩ := C236_turns data spec k hk n1 n2
  rw [a3] at c1; cases c1
  refine ⟨⟨n1, n2, a1, b1, a3, by rw [← c2, b3]⟩, ?_, (reaches_after d1 d2).1 b4⟩
  obtain ⟨r', e1, -, -, e4⟩ := C25_valid_kept r1 spec k hk1 n2
  rw [b3] at e1; cases e1
  intro p hp hpm
  obtain ⟨v, hv⟩ := a4 p hp hpm
  exact ⟨v, e4 p v hv⟩

/-- **C236, the same mask again.** Eroding again down to the same mask makes exactly one more turn. -/
theorem C236_again (data : LArr V) (spec : KSpec) (k : LArr ℚ) (hk : ErodeKernel data spec k) (mask : LArr Bool) (hm : TargetMask mask data k)
    (fuel : Nat) (r : LArr V) (h : erodeMaskUntil data mask spec fuel = some (.ok r)) (fuel' : Nat) (hf : 1 ≤ fuel') :
    erodeMaskUntil r mask spec fuel' = some (erodeMaskN r 1 spec) := by
  obtain ⟨n1, r', a1, -, e, a3, a4, -⟩ := C26_result data spec k hk mask hm fuel _ h
  cases e
  obtain ⟨r', b1, d1, d2, -⟩ := C25_valid_kept data spec k hk n1
  rw [a3] at b1; cases b1
  have hk1 := erodeKernel_after hk d1 d2
  have hm1 := targetMask_after hm d1 d2
  obtain ⟨s, s1, -, -, s4⟩ := C25_valid_kept r spec k hk1 (1 : Nat)
  have hs : Reaches mask r s := by
    rw [reaches_after d1 d2]
    intro p hp hpm
    obtain ⟨v, hv⟩ := a4 p hp hpm
    exact ⟨v, s4 p v hv⟩
  obtain ⟨out, ho⟩ := Option.isSome_iff_exists.1 ((C26_returns_iff r spec k hk1 mask hm1 fuel').2 ⟨1, s, le_refl 1, hf, s1, hs⟩)
  obtain ⟨n, t, c1, -, e, c3, -, c5⟩ := C26_result r spec k hk1 mask hm1 fuel' _ ho
  have : n = 1 := by
    by_contra hne
    exact c5 1 s (le_refl 1) (by omega) s1 hs
  subst this
  rw [ho, e, ← c3]
  rfl

/-- **C236, another mask afterwards.** When the result of the erosion down to a first mask does not already reach a second one, eroding down to the first, then down to the second, gives what eroding down to the second
at once gives. -/
theorem C236_then (data : LArr V) (spec : KSpec) (k : LArr ℚ) (hk : ErodeKernel data spec k) (mask1 mask2 : LArr Bool) (hm1 : TargetMask mask1 data k) (hm2 : TargetMask mask2 data k)
    (fuel1 fuel2 fuel : Nat) (r1 r2 r : LArr V) (h1 : erodeMaskUntil data mask1 spec fuel1 = some (.ok r1)) (h2 : erodeMaskUntil r1 mask2 spec fuel2 = some (.ok r2))
    (h : erodeMaskUntil data mask2 spec fuel = some (.ok r)) (hr : ¬ Reaches mask2 data r1) : r2 = r := by
  obtain ⟨n1, x, a1, -, e, a3, a4, a5⟩ := C26_result data spec k hk mask1 hm1 fuel1 _ h1
  cases e
  obtain ⟨x, b1, d1, d2, -⟩ := C25_valid_kept data spec k hk n1
  rw [a3] at b1; cases b1
  have hk1 := erodeKernel_after hk d1 d2
  obtain ⟨n2, x, b1, -, e, b3, b4, b5⟩ := C26_result r1 spec k hk1 mask2 (targetMask_after hm2 d1 d2) fuel2 _ h2
  cases e
  obtain ⟨n, x, c1, -, e, c3, c4, c5⟩ := C26_result data spec k hk mask2 hm2 fuel _ h
  cases e
  obtain ⟨x, e1, e2⟩ := C236_turns data spec k hk n1 n2
  rw [a3] at e1; cases e1
  rw [b3] at e2
  have hle : n ≤ n1 + n2 := by
    by_contra hc
    exact c5 (n1 + n2) r2 (by omega) (by omega) e2.symm ((reaches_after d1 d2).1 b4)
  have hgt : n1 < n := by
    by_contra hc
    have hnn : n ≤ n1 := by omega
    apply hr
    have hmono := (C25_more_turns data r r1 spec k hk n n1 hnn c3 a3).1
    intro p hp hpm
    obtain ⟨v, hv⟩ := c4 p hp hpm
    exact ⟨v, hmono p v hv⟩
  have hge : n1 + n2 ≤ n := by
    by_contra hc
    obtain ⟨x, f1, f2⟩ := C236_turns data spec k hk n1 (n - n1)
    rw [a3] at f1; cases f1
    rw [show n1 + (n - n1) = n by omega, c3] at f2
    exact b5 (n - n1) r (by omega) (by omega) f2 ((reaches_after d1 d2).2 c4)
  have : n1 + n2 = n := by omega
  rw [this, c3] at e2
  cases e2
  rfl

/-- a mask that hides the second half of the line, then a mask that hides nothing: one turn, then two -/
example :
    let data := eData [[some 2, none, none], [none, none, none]]
    let spec : KSpec := .da (shapiroKernel ["y", "x"])
    let mask1 : LArr Bool := ⟨["y", "x"], [2, 3], fun p => decide (1 ≤ p.getD 0 0 ∨ 2 ≤ p.getD 1 0)⟩
    let mask2 : LArr Bool := ⟨["y", "x"], [2, 3], fun _ => false⟩
    ((erodeMaskUntil data mask1 spec 9).bind (fun o => match o with
      | .ok r1 => (erodeMaskUntil r1 mask2 spec 9).map (fun o => (fVals (.ok r1), fVals o))
      | .error _ => none)) =
      some (some [some 2, some 2, none, some 2, none, none], some [some 2, some 2, some 2, some 2, some 2, some 2]) ∧
    (erodeMaskUntil data mask2 spec 9).map fVals = some (some [some 2, some 2, some 2, some 2, some 2, some 2]) := by
  decide +kernel

end Xoa
