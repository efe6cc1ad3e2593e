import Verif.OrderProps

/-!
# C223: more data never remove results

No new model. Data are added to an array: the values that are there are kept, some missing values get a value. The interpolated values that were there
are unchanged; averages, filtered data and eroded masks have values at least where they had one.
-/

namespace Xoa
open V

/-- data added: every value is kept -/
def Kept (x y : V) : Prop := ∀ a, x = some a → y = some a

/-- available at least as often -/
def Avail (x y : V) : Prop := x ≠ none → y ≠ none

theorem Kept.avail {x y : V} (h : Kept x y) : Avail x y := by
  intro hx
  cases x with
  | none => exact absurd rfl hx
  | some a => rw [h a rfl]; simp

/-- the first value, else the second one -/
def keptc (x y : V) : V := match x with
  | some a => some a
  | none => y

theorem keptc_iff (x y : V) : y = keptc x y ↔ Kept x y := by
  unfold Kept keptc
  cases x <;> simp

theorem Kept.rfl' (x : V) : Kept x x := fun _ h => h

theorem Kept.add {x y x' y' : V} (h : Kept x x') (k : Kept y y') : Kept (V.add x y) (V.add x' y') := by
  intro a ha
  cases x <;> cases y <;> simp [V.add] at ha
  rw [h _ rfl, k _ rfl]; simp [V.add, ha]

theorem Kept.sub {x y x' y' : V} (h : Kept x x') (k : Kept y y') : Kept (V.sub x y) (V.sub x' y') := by
  intro a ha
  cases x <;> cases y <;> simp [V.sub] at ha
  rw [h _ rfl, k _ rfl]; simp [V.sub, ha]

theorem Kept.mul {x y x' y' : V} (h : Kept x x') (k : Kept y y') : Kept (V.mul x y) (V.mul x' y') := by
  intro a ha
  cases x <;> cases y <;> simp [V.mul] at ha
  rw [h _ rfl, k _ rfl]; simp [V.mul, ha]

theorem Kept.div {x y x' y' : V} (h : Kept x x') (k : Kept y y') : Kept (V.div x y) (V.div x' y') := by
  intro a ha
  cases x <;> cases y <;> simp [V.div] at ha
  rw [h _ rfl, k _ rfl]; simp [V.div, ha]

theorem linearW_kept (r1 r2 : Row) (h : ∀ i, Kept (r1.rd i) (r2.rd i)) : WComb keptc (linearW r1) (linearW r2) (linearW r2) := by
  intro i d0 d1
  unfold linearW
  by_cases hc : (le (some 0) d0 && le (some 0) d1) = true
  · right
    rw [if_pos hc, if_pos hc]
    refine ⟨_, _, rfl, rfl, congrArg some ((keptc_iff _ _).2 ?_)⟩
    exact (((h i).mul (.rfl' _)).add ((h (i + 1)).mul (.rfl' _))).div (.rfl' _)
  · left; rw [if_neg hc, if_neg hc]; exact ⟨rfl, rfl, rfl⟩

theorem nearestW_kept (r1 r2 : Row) (h : ∀ i, Kept (r1.rd i) (r2.rd i)) : WComb keptc (nearestW r1) (nearestW r2) (nearestW r2) := by
  intro i d0 d1
  right
  unfold nearestW
  split
  · exact ⟨_, _, rfl, rfl, congrArg some ((keptc_iff _ _).2 (h _))⟩
  · exact ⟨_, _, rfl, rfl, congrArg some ((keptc_iff _ _).2 (h _))⟩

theorem vc0_kept (r1 r2 q1 q2 : Row) (h : ∀ i, Kept (r1.rd i) (r2.rd i)) (hq : ∀ i, Kept (q1.rd i) (q2.rd i)) (m i : Int) : Kept (vc0 r1 q1 m i) (vc0 r2 q2 m i) := by
  unfold vc0
  split
  · exact ((Kept.rfl' _).mul (h _)).sub (h _)
  · exact hq _

theorem vc1_kept (q1 q2 : Row) (hq : ∀ i, Kept (q1.rd i) (q2.rd i)) (m i : Int) : Kept (vc1 q1 m i) (vc1 q2 m i) := by
  unfold vc1
  split
  · exact ((Kept.rfl' _).mul (hq _)).sub (hq _)
  · exact hq _

theorem cubicW_kept (r1 r2 q1 q2 : Row) (h : ∀ i, Kept (r1.rd i) (r2.rd i)) (hq : ∀ i, Kept (q1.rd i) (q2.rd i)) (m M i : Int) (d0 d1 : V) :
    Kept (cubicW r1 q1 m M i d0 d1) (cubicW r2 q2 m M i d0 d1) := by
  have c0 := vc0_kept r1 r2 q1 q2 h hq m i
  have c1 := vc1_kept q1 q2 hq M i
  have t := ((c1.sub (h (i + 1))).sub c0).add (h i)
  unfold cubicW
  dsimp only
  exact ((((Kept.rfl' _).mul t).add ((Kept.rfl' _).mul ((c0.sub (h i)).sub t))).add ((Kept.rfl' _).mul ((h (i + 1)).sub c0))).add (h i)

theorem hermitW_kept (bias tension : ℚ) (r1 r2 q1 q2 : Row) (h : ∀ i, Kept (r1.rd i) (r2.rd i)) (hq : ∀ i, Kept (q1.rd i) (q2.rd i)) (m M i : Int) (d0 d1 : V) :
    Kept (hermitW bias tension r1 q1 m M i d0 d1) (hermitW bias tension r2 q2 m M i d0 d1) := by
  have c0 := vc0_kept r1 r2 q1 q2 h hq m i
  have c1 := vc1_kept q1 q2 hq M i
  unfold hermitW
  dsimp only
  refine Kept.add (Kept.add (Kept.add ((Kept.rfl' _).mul (h i)) ((Kept.rfl' _).mul ?_)) ((Kept.rfl' _).mul ?_)) ((Kept.rfl' _).mul (h (i + 1)))
  · exact (((h i).sub c0).mul (.rfl' _)).add (((h (i + 1)).sub (h i)).mul (.rfl' _))
  · exact (((h (i + 1)).sub (h i)).mul (.rfl' _)).add ((c1.sub (h (i + 1))).mul (.rfl' _))

/-- **C223 (interpolation).** When data are added, the values that the four routines gave are unchanged, whatever the coordinates, sorted or not. -/
theorem C223_interp (v1 v2 yi yo : Mat) (bias tension : ℚ) (hsh : v1.SameShape v2) (h : ∀ i j, Kept (v1.get i j) (v2.get i j)) (i j : Int) :
    Kept ((linear1d v1 yi yo).get i j) ((linear1d v2 yi yo).get i j) ∧ Kept ((nearest1d v1 yi yo).get i j) ((nearest1d v2 yi yo).get i j) ∧
    Kept ((cubic1d v1 yi yo).get i j) ((cubic1d v2 yi yo).get i j) ∧
    Kept ((hermit1d v1 yi yo bias tension).get i j) ((hermit1d v2 yi yo bias tension).get i j) := by
  have hr : ∀ ix i, Kept ((v1.row (rowIdx v1.nx ix)).rd i) ((v2.row (rowIdx v2.nx ix)).rd i) := by
    intro ix i
    show Kept (v1.get (rowIdx v1.nx ix) (wrapIdx v1.ny i)) (v2.get (rowIdx v2.nx ix) (wrapIdx v2.ny i))
    rw [hsh.1, hsh.2]; exact h _ _
  have hr' : ∀ ix i, Kept ((v1.row ix).rd i) ((v2.row ix).rd i) := by
    intro ix i
    show Kept (v1.get ix (wrapIdx v1.ny i)) (v2.get ix (wrapIdx v2.ny i))
    rw [hsh.2]; exact h _ _
  rw [← keptc_iff, ← keptc_iff, ← keptc_iff, ← keptc_iff]
  refine ⟨?_, ?_, ?_, ?_⟩ <;> refine mkOut_get_comb (c := keptc) rfl v1 v2 v2 yo hsh.1.symm hsh.1.symm (fun ix o1 o2 o3 h => ?_) i j
  · exact nlOuter_comb _ _ (linearW_kept _ _ (hr ix)) _ _ _ _ _ _ h
  · exact nlOuter_comb _ _ (nearestW_kept _ _ (hr ix)) _ _ _ _ _ _ h
  · exact chOuter_comb _ _ (fun i d0 d1 => (keptc_iff _ _).2 (cubicW_kept _ _ _ _ (hr' ix) (hr ix) _ _ i d0 d1)) _ _ _ _ _ _ h
  · exact chOuter_comb _ _ (fun i d0 d1 => (keptc_iff _ _).2 (hermitW_kept bias tension _ _ _ _ (hr' ix) (hr ix) _ _ i d0 d1)) _ _ _ _ _ _ h

/-- **C223 (`regrid1d`).** When data are added, the values that `regrid1d` gave with any interpolation method are unchanged, with any dimensions: both calls succeed, or fail with the
same exception. -/
theorem C223_regrid1d (o : RegridOpts) (K : Mat → Mat → Mat → Mat) (hK : Named o.method K) (he : ExtrapKnown o.extrap)
    (A B cin cout : LArr V) (hd : B.dims = A.dims) (hsh : B.shape = A.shape) (h : ∀ i, Kept (A.val i) (B.val i)) (dim0 dim1 : String) :
    (∃ e, regrid1d o A cin cout dim0 dim1 = .error e ∧ regrid1d o B cin cout dim0 dim1 = .error e) ∨
    (∃ RA RB, regrid1d o A cin cout dim0 dim1 = .ok RA ∧ regrid1d o B cin cout dim0 dim1 = .ok RB ∧ RB.dims = RA.dims ∧ RB.shape = RA.shape ∧
      ∀ i, Kept (RA.val i) (RB.val i)) := by
  rw [C21_method o K hK he, C21_method o K hK he]
  obtain ⟨d, sh, v1⟩ := A
  obtain ⟨d2, sh2, v2⟩ := B
  dsimp only at hd hsh
  subst hd hsh
  refine regridWith_rel K Kept ?_ d2 sh2 v1 v2 h cin cout dim0 dim1
  intro m1 m2 mi mo e1 e2 hb
  have key := C223_interp m1 m2 mi mo 0 0 ⟨e1.symm, e2.symm⟩ hb
  clear he
  generalize o.method = mm at hK
  cases hK <;> first
    | exact ⟨congrArg (max · mo.nx) e1, rfl, fun i j => (key i j).1⟩
    | exact ⟨congrArg (max · mo.nx) e1, rfl, fun i j => (key i j).2.1⟩
    | exact ⟨congrArg (max · mo.nx) e1, rfl, fun i j => (key i j).2.2.1⟩
    | exact ⟨congrArg (max · mo.nx) e1, rfl, fun i j => (key i j).2.2.2⟩

/-! ## cell averages -/

open Finset in
/-- **C223 (cell averages).** When data are added, the averages have a value at least where they had one, conservative or not, with any extrapolation. -/
theorem C223_cellave (v1 v2 : NMat V) (yib yob : NMat ℚ) (hg : CellGrid v1 yib yob) (hx : v2.nx = v1.nx) (hy : v2.ny = v1.ny) (conserv : Bool) (ex : CExtrap)
    (ix k : Nat) (hix : ix < v1.nx) (hk : k < yob.ny - 1) (h : ∀ i, i < v1.ny → Avail (v1.get ix i) (v2.get ix i)) :
    Avail ((cellave1d v1 yib yob conserv ex).get ix k) ((cellave1d v2 yib yob conserv ex).get ix k) := by
  have hg2 : CellGrid v2 yib yob := ⟨by rw [hx]; exact hg.nxi, hg.nxib, hg.nxo, by rw [hy]; exact hg.asci, hg.asco⟩
  have ho := hg.asco (ix % yob.nx) k (Nat.mod_lt _ hg.nxo) hk
  cases conserv with
  | true =>
    have c2 := C09_cellave1d_cell v2 yib yob ex hg2 ix k (by rw [hx]; exact hix) hk
    dsimp only at c2
    rw [c2]
    intro _; simp
  | false =>
    rcases eq_or_lt_of_le ho with e | e
    · rw [C10_cellave1d_zero_width v1 yib yob ex false hg ix k hix hk e, C10_cellave1d_zero_width v2 yib yob ex false hg2 ix k (by rw [hx]; exact hix) hk e]
      exact id
    · have c1 := C10_cellave1d_mean v1 yib yob ex hg ix k hix hk e
      have c2 := C10_cellave1d_mean v2 yib yob ex hg2 ix k (by rw [hx]; exact hix) hk e
      dsimp only at c1 c2
      rw [hy] at c2
      have hW : ∑ i ∈ range v1.ny, okv (v1.get ix i) * cellOverlap ex v1.ny (yib.get (ix % yib.nx)) (yob.get (ix % yob.nx) k) (yob.get (ix % yob.nx) (k+1)) i ≤
          ∑ i ∈ range v1.ny, okv (v2.get ix i) * cellOverlap ex v1.ny (yib.get (ix % yib.nx)) (yob.get (ix % yob.nx) k) (yob.get (ix % yob.nx) (k+1)) i := by
        refine Finset.sum_le_sum fun i hi => mul_le_mul_of_nonneg_right ?_ (cellOverlap_nonneg _ _ _ _ _ i)
        have := h i (mem_range.1 hi)
        revert this
        cases v1.get ix i <;> cases v2.get ix i <;> simp [okv, Avail]
      have h0 : 0 ≤ ∑ i ∈ range v1.ny, okv (v1.get ix i) * cellOverlap ex v1.ny (yib.get (ix % yib.nx)) (yob.get (ix % yob.nx) k) (yob.get (ix % yob.nx) (k+1)) i := by
        refine Finset.sum_nonneg fun i _ => mul_nonneg ?_ (cellOverlap_nonneg _ _ _ _ _ i)
        unfold okv; split <;> norm_num
      rw [c1, c2]
      intro hs
      split at hs
      · exact absurd rfl hs
      · rename_i hne
        rw [if_neg]
        · simp
        · intro hz
          rw [hz] at hW
          exact hne (le_antisymm hW h0)

/-! ## filters -/

/-- **C223 (filters).** When data are added, the filtered data have a value at least where they had one, normalised or not, with nonnegative weights. -/
theorem C223_convolve (d1 d2 r1 r2 : LArr V) (k : LArr ℚ) (hk : KNonneg k) (hsh : d2.shape = d1.shape)
    (h : ∀ q, InShape d1.shape q → Avail (d1.val q) (d2.val q)) (normalize : Bool)
    (h1 : convolveNd d1 k normalize = .ok r1) (h2 : convolveNd d2 k normalize = .ok r2) (p : List Nat) : Avail (r1.val p) (r2.val p) := by
  by_cases hl : d1.shape.length = k.shape.length
  · obtain ⟨s1, e1, -, -, w1⟩ := convolveNd_spec d1 k hk hl normalize
    obtain ⟨s2, e2, -, -, w2⟩ := convolveNd_spec d2 k hk (by rw [hsh]; exact hl) normalize
    rw [h1] at e1; rw [h2] at e2
    obtain rfl := Except.ok.inj e1
    obtain rfl := Except.ok.inj e2
    have hW : availWeight d1 k p ≤ availWeight d2 k p := by
      unfold availWeight
      rw [hsh]
      refine list_sum_le _ _ _ fun q hq => ?_
      have := h q ((mem_positions _ _).1 hq)
      revert this
      have := kAt_nonneg k hk p q
      cases d1.val q <;> cases d2.val q <;> simp [Avail, this]
    intro hs
    have hno : ¬ (HasMissing d1 ∧ availWeight d1 k p ≤ 1 / 1000000 * kSum k) := fun hc => hs ((w1 p).1 hc.1 hc.2)
    have hno2 : ¬ (HasMissing d2 ∧ availWeight d2 k p ≤ 1 / 1000000 * kSum k) := by
      rintro ⟨⟨q, hq, hqn⟩, hle⟩
      refine hno ⟨⟨q, by rw [← hsh]; exact hq, ?_⟩, le_trans hW hle⟩
      by_contra hc
      exact h q (by rw [← hsh]; exact hq) hc hqn
    rw [(w1 p).2 hno] at hs
    rw [(w2 p).2 hno2]
    cases normalize with
    | false => simp
    | true =>
      simp only [if_true] at hs ⊢
      have hz : availWeight d1 k p ≠ 0 := by
        intro hz
        rw [hz] at hs
        exact hs (by simp [V.div])
      have hp : 0 < availWeight d2 k p := lt_of_lt_of_le (lt_of_le_of_ne (availWeight_nonneg d1 k hk p) (Ne.symm hz)) hW
      rw [div_some hp.ne']; simp
  · rw [convolveNd_bad d1 k hl] at h1; exact absurd h1 (by simp)

/-- **C223 (`erode_mask`).** When data are added, the mask eroded with nonnegative weights by any number of turns is at most the mask that was eroded from fewer data. -/
theorem C223_erode (d1 d2 : LArr V) (spec : KSpec) (k : LArr ℚ) (hk1 : ErodeKernel d1 spec k) (hn : KNonneg k) (hd : d2.dims = d1.dims)
    (hsh : d2.shape = d1.shape) (h : ∀ q, InShape d1.shape q → Avail (d1.val q) (d2.val q)) (n : Int) :
    ∃ r1 r2, erodeMaskN d1 n spec = .ok r1 ∧ erodeMaskN d2 n spec = .ok r2 ∧ r1.dims = d1.dims ∧ r1.shape = d1.shape ∧ r2.dims = d1.dims ∧ r2.shape = d1.shape ∧
      ∀ q, InShape d1.shape q → Avail (r1.val q) (r2.val q) := by
  have he : erodeKernel d2 spec = erodeKernel d1 spec := by unfold erodeKernel; rw [hd]
  unfold erodeMaskN
  rw [he, hk1.made]
  show ∃ r1 r2, erodeIter k n.toNat d1 = .ok r1 ∧ erodeIter k n.toNat d2 = .ok r2 ∧ _
  have f1 := hk1.fits
  have f2 : Fits d2 k := fill_fits f1 hd hsh
  clear hk1 he
  generalize n.toNat = m
  induction m generalizing d1 d2 with
  | zero => exact ⟨d1, d2, rfl, rfl, rfl, rfl, hd, hsh, h⟩
  | succ m ih =>
    obtain ⟨c1, e1, a1, b1, x1, y1, z1⟩ := fill_ok d1 k f1
    obtain ⟨c2, e2, a2, b2, x2, y2, z2⟩ := fill_ok d2 k f2
    have hc := C223_convolve d1 d2 c1 c2 k hn hsh h true a1 a2
    obtain ⟨r1, r2, i1, i2, i3, i4, i5, i6, i7⟩ := ih e1 e2 (by rw [x1, x2, hd]) (by rw [y1, y2, hsh]) (by
      intro q hq
      rw [y1] at hq
      rw [z1, z2]
      have hq' := h q hq
      revert hq'
      cases d1.val q <;> cases d2.val q
      · exact fun _ => hc q
      · intro _ _; simp
      · intro hq'; exact absurd rfl (hq' (by simp))
      · intro _ _; simp) (fill_fits f1 x1 y1) (fill_fits f2 x2 y2)
    refine ⟨r1, r2, ?_, ?_, by rw [i3, x1], by rw [i4, y1], by rw [i5, x1], by rw [i6, y1], fun q hq => i7 q (by rw [y1]; exact hq)⟩
    · rw [erodeIter_succ k m d1 e1 b1]; exact i1
    · rw [erodeIter_succ k m d2 e2 b2]; exact i2

/-! ## examples, and what is not claimed -/

/-- some data, and the same with one more -/
def lessData : Mat := Mat.ofLists [[some 1, none, some 3, some 5, some 4]]
def moreData : Mat := Mat.ofLists [[some 1, some 7, some 3, some 5, some 4]]
def mdYi : Mat := Mat.ofLists [[some 0, some 1, some 2, some 3, some 4]]
def mdYo : Mat := Mat.ofLists [[some (1/2), some (5/2), some (7/2)]]

example : (∀ j ∈ [0, 1, 2, 3, 4], Kept (lessData.get 0 j) (moreData.get 0 j)) ∧
    ([0, 1, 2].map ((linear1d lessData mdYi mdYo).get 0) = [none, some 4, some (9/2)]) ∧
    ([0, 1, 2].map ((linear1d moreData mdYi mdYo).get 0) = [some 4, some 4, some (9/2)]) := by
  refine ⟨?_, by decide +kernel, by decide +kernel⟩
  intro j hj
  rw [← keptc_iff]
  revert j
  decide +kernel

/-- the extrapolation fills the ends only: a datum added at the very beginning takes the place of the first one, and the points after it are not filled any more -/
example : [0, 1, 2].map ((extrap1d (Mat.ofLists [[none, none, some 5]]) .bottom).get 0) = [some 5, some 5, some 5] ∧
    [0, 1, 2].map ((extrap1d (Mat.ofLists [[some 3, none, some 5]]) .bottom).get 0) = [some 3, none, some 5] := by
  decide +kernel

-- a filtered value appears
example : KNonneg (fKer [1, 1, 1]) ∧ fVals (convolveNd (fData [none, none, none, some 3]) (fKer [1, 1, 1]) true) = some [none, none, some 3, some 3] ∧
    fVals (convolveNd (fData [some 1, none, none, some 3]) (fKer [1, 1, 1]) true) = some [some 1, some 1, some 3, some 3] :=
  ⟨fKer_nonneg _ (by decide), by decide +kernel, by decide +kernel⟩

end Xoa
