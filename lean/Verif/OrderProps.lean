import Verif.RegridUnitsProps
import Verif.CellaveUnitsProps
import Verif.FilterUnitsProps

/-!
# C186: larger data give larger results

Interpolation, cell averages, extrapolation, filters and mask erosion keep the order of two arrays.
-/

namespace Xoa
open V

/-- the first value is at most the second one, when there are both -/
def Below (x y : V) : Prop := ∀ a b, x = some a → y = some b → a ≤ b

/-- both are missing, or the first value is at most the second one -/
def BelowM (x y : V) : Prop := (x = none ↔ y = none) ∧ Below x y

/-- the second value, when it is not below the first one -/
def ordc (x y : V) : V := match x, y with
  | some a, some b => if a ≤ b then some b else none
  | _, y => y

theorem ordc_iff (x y : V) : y = ordc x y ↔ Below x y := by
  unfold Below ordc
  cases x with
  | none => simp
  | some a =>
    cases y with
    | none => simp
    | some b =>
      by_cases h : a ≤ b
      · simp [h]
      · simp [h]

theorem mean2 (x y x' y' p q : ℚ) (hp : 0 ≤ p) (hq : 0 ≤ q) (h1 : x ≤ x') (h2 : y ≤ y') : (q * x + p * y) / (p + q) ≤ (q * x' + p * y') / (p + q) := by
  apply div_le_div_of_nonneg_right _ (by linarith)
  nlinarith [mul_le_mul_of_nonneg_left h1 hq, mul_le_mul_of_nonneg_left h2 hp]

theorem linearW_ord (r1 r2 : Row) (h : ∀ i, Below (r1.rd i) (r2.rd i)) : WComb ordc (linearW r1) (linearW r2) (linearW r2) := by
  intro i d0 d1
  unfold linearW
  by_cases hc : (le (some 0) d0 && le (some 0) d1) = true
  · right
    rw [if_pos hc, if_pos hc]
    refine ⟨_, _, rfl, rfl, ?_⟩
    congr 1
    rw [ordc_iff]
    rw [Bool.and_eq_true, le_iff, le_iff] at hc
    obtain ⟨⟨_, p, e1, rfl, hp⟩, _, q, e2, rfl, hq⟩ := hc
    obtain rfl := Option.some.inj e1
    obtain rfl := Option.some.inj e2
    have h1 := h i
    have h2 := h (i + 1)
    revert h1 h2
    cases r1.rd i <;> cases r1.rd (i + 1) <;> cases r2.rd i <;> cases r2.rd (i + 1) <;> intro h1 h2 a b ha hb <;> simp [div] at ha hb
    obtain ⟨hz, ha⟩ := ha
    obtain ⟨-, hb⟩ := hb
    have h1' := h1 _ _ rfl rfl
    have h2' := h2 _ _ rfl rfl
    rw [← ha, ← hb]
    rw [div_le_div_iff_of_pos_right (lt_of_le_of_ne (by linarith) (Ne.symm hz))]
    nlinarith [mul_le_mul_of_nonneg_left h1' hq, mul_le_mul_of_nonneg_left h2' hp]
  · left; rw [if_neg hc, if_neg hc]; exact ⟨rfl, rfl, rfl⟩

theorem nearestW_ord (r1 r2 : Row) (h : ∀ i, Below (r1.rd i) (r2.rd i)) : WComb ordc (nearestW r1) (nearestW r2) (nearestW r2) := by
  intro i d0 d1
  right
  unfold nearestW
  split
  · exact ⟨_, _, rfl, rfl, by rw [← (ordc_iff _ _).2 (h _)]⟩
  · exact ⟨_, _, rfl, rfl, by rw [← (ordc_iff _ _).2 (h _)]⟩

/-- **C186 (interpolation).** With linear and nearest interpolation, larger data give larger results, whatever the coordinates, sorted or not. -/
theorem C186_interp (v1 v2 yi yo : Mat) (hsh : v1.SameShape v2) (h : ∀ i j, Below (v1.get i j) (v2.get i j)) (i j : Int) :
    Below ((linear1d v1 yi yo).get i j) ((linear1d v2 yi yo).get i j) ∧ Below ((nearest1d v1 yi yo).get i j) ((nearest1d v2 yi yo).get i j) := by
  have hr : ∀ ix i, Below ((v1.row (rowIdx v1.nx ix)).rd i) ((v2.row (rowIdx v2.nx ix)).rd i) := by
    intro ix i
    show Below (v1.get (rowIdx v1.nx ix) (wrapIdx v1.ny i)) (v2.get (rowIdx v2.nx ix) (wrapIdx v2.ny i))
    rw [hsh.1, hsh.2]; exact h _ _
  rw [← ordc_iff, ← ordc_iff]
  constructor <;> refine mkOut_get_comb (c := ordc) rfl v1 v2 v2 yo hsh.1.symm hsh.1.symm (fun ix o1 o2 o3 h => ?_) i j
  · exact nlOuter_comb _ _ (linearW_ord _ _ (hr ix)) _ _ _ _ _ _ h
  · exact nlOuter_comb _ _ (nearestW_ord _ _ (hr ix)) _ _ _ _ _ _ h

/-! ## `regrid1d` -/

/-- the result of the whole chain when the routine keeps a relation between values -/
theorem regridWith_rel (K : Mat → Mat → Mat → Mat) (R : V → V → Prop)
    (hK : ∀ (m1 m2 mi mo : Mat), m2.nx = m1.nx → m2.ny = m1.ny → (∀ i j, R (m1.get i j) (m2.get i j)) →
      (K m2 mi mo).nx = (K m1 mi mo).nx ∧ (K m2 mi mo).ny = (K m1 mi mo).ny ∧ ∀ i j, R ((K m1 mi mo).get i j) ((K m2 mi mo).get i j))
    (d : List String) (sh : List Nat) (v1 v2 : List Nat → V) (hv : ∀ i, R (v1 i) (v2 i)) (cin cout : LArr V) (dim0 dim1 : String) :
    (∃ e, regridWith K ⟨d, sh, v1⟩ cin cout dim0 dim1 = .error e ∧ regridWith K ⟨d, sh, v2⟩ cin cout dim0 dim1 = .error e) ∨
    (∃ r1 r2, regridWith K ⟨d, sh, v1⟩ cin cout dim0 dim1 = .ok r1 ∧ regridWith K ⟨d, sh, v2⟩ cin cout dim0 dim1 = .ok r2 ∧
      r2.dims = r1.dims ∧ r2.shape = r1.shape ∧ ∀ i, R (r1.val i) (r2.val i)) := by
  obtain ⟨di, si, vi⟩ := cin
  obtain ⟨dou, so, vo⟩ := cout
  unfold regridWith
  rcases flush_plan d di dou sh si so dim0 dim1 with ⟨e, he⟩ | ⟨F, ⟨md, mi, mo, ws, wd, fd, ⟨nx, ny, g, rfl⟩, ⟨nx2, ny2, g2, rfl⟩, ⟨nx3, ny3, g3, rfl⟩, rfl⟩, he⟩
  · left
    have e1 := he ⟨v1, vi, vo⟩
    have e2 := he ⟨v2, vi, vo⟩
    dsimp only at e1 e2
    rw [e1, e2]
    exact ⟨e, rfl, rfl⟩
  · have e1 := he ⟨v1, vi, vo⟩
    have e2 := he ⟨v2, vi, vo⟩
    dsimp only at e1 e2
    rw [e1, e2]
    obtain ⟨k1, k2, k3⟩ := hK ⟨nx, ny, fun i j => v1 (g i j)⟩ ⟨nx, ny, fun i j => v2 (g i j)⟩
      ⟨nx2, ny2, fun i j => vi (g2 i j)⟩ ⟨nx3, ny3, fun i j => vo (g3 i j)⟩ rfl rfl (fun i j => hv _)
    simp only [Except.bind, bind] at *
    generalize K ⟨nx, ny, fun i j => v1 (g i j)⟩ ⟨nx2, ny2, fun i j => vi (g2 i j)⟩ ⟨nx3, ny3, fun i j => vo (g3 i j)⟩ = M1 at *
    generalize K ⟨nx, ny, fun i j => v2 (g i j)⟩ ⟨nx2, ny2, fun i j => vi (g2 i j)⟩ ⟨nx3, ny3, fun i j => vo (g3 i j)⟩ = M2 at *
    obtain ⟨n1, p1, q1⟩ := M1
    obtain ⟨n2, p2, q2⟩ := M2
    dsimp only at k1 k2
    subst k1 k2
    rcases getBack_plan ws wd fd n2 p2 with ⟨e, hb⟩ | ⟨d', sh', h, hb⟩
    · left; exact ⟨e, hb _ _ _ _, hb _ _ _ _⟩
    · right; exact ⟨_, _, hb _ _ _ _, hb _ _ _ _, rfl, rfl, fun i => k3 _ _⟩

/-- **C186 (`regrid1d`).** With the linear and nearest methods, larger data give larger results, with any dimensions: both calls succeed, or
fail with the same exception. -/
theorem C186_regrid1d (o : RegridOpts) (K : Mat → Mat → Mat → Mat) (hK : Named o.method K) (hm : K = linear1d ∨ K = nearest1d) (he : ExtrapKnown o.extrap)
    (A B cin cout : LArr V) (hd : B.dims = A.dims) (hsh : B.shape = A.shape) (h : ∀ i, Below (A.val i) (B.val i)) (dim0 dim1 : String) :
    (∃ e, regrid1d o A cin cout dim0 dim1 = .error e ∧ regrid1d o B cin cout dim0 dim1 = .error e) ∨
    (∃ RA RB, regrid1d o A cin cout dim0 dim1 = .ok RA ∧ regrid1d o B cin cout dim0 dim1 = .ok RB ∧ RB.dims = RA.dims ∧ RB.shape = RA.shape ∧
      ∀ i, Below (RA.val i) (RB.val i)) := by
  rw [C21_method o K hK he, C21_method o K hK he]
  obtain ⟨d, sh, v1⟩ := A
  obtain ⟨d2, sh2, v2⟩ := B
  dsimp only at hd hsh
  subst hd hsh
  refine regridWith_rel K Below ?_ d2 sh2 v1 v2 h cin cout dim0 dim1
  intro m1 m2 mi mo e1 e2 hb
  have key := C186_interp m1 m2 mi mo ⟨e1.symm, e2.symm⟩ hb
  rcases hm with rfl | rfl
  · exact ⟨congrArg (max · mo.nx) e1, rfl, fun i j => (key i j).1⟩
  · exact ⟨congrArg (max · mo.nx) e1, rfl, fun i j => (key i j).2⟩

/-! ## cell averages -/

open Finset in
/-- **C186 (cell averages).** Larger data, missing at the same places, give larger averages, missing at the same places, conservative or not,
with any extrapolation. -/
theorem C186_cellave (v1 v2 : NMat V) (yib yob : NMat ℚ) (hg : CellGrid v1 yib yob) (hx : v2.nx = v1.nx) (hy : v2.ny = v1.ny) (conserv : Bool) (ex : CExtrap)
    (ix k : Nat) (hix : ix < v1.nx) (hk : k < yob.ny - 1) (h : ∀ i, i < v1.ny → BelowM (v1.get ix i) (v2.get ix i)) :
    BelowM ((cellave1d v1 yib yob conserv ex).get ix k) ((cellave1d v2 yib yob conserv ex).get ix k) := by
  have hg2 : CellGrid v2 yib yob := ⟨by rw [hx]; exact hg.nxi, hg.nxib, hg.nxo, by rw [hy]; exact hg.asci, hg.asco⟩
  have ho := hg.asco (ix % yob.nx) k (Nat.mod_lt _ hg.nxo) hk
  have hok : ∀ i ∈ range v1.ny, okv (v2.get ix i) = okv (v1.get ix i) := by
    intro i hi
    have := (h i (mem_range.1 hi)).1
    revert this
    cases v1.get ix i <;> cases v2.get ix i <;> simp [okv]
  have hz : ∀ i ∈ range v1.ny, zv (v1.get ix i) ≤ zv (v2.get ix i) := by
    intro i hi
    have h1 := (h i (mem_range.1 hi)).1
    have h2 := (h i (mem_range.1 hi)).2
    revert h1 h2
    cases v1.get ix i <;> cases v2.get ix i <;> simp [zv]
    intro h2; exact h2 _ _ rfl rfl
  have hS : ∑ i ∈ range v1.ny, zv (v1.get ix i) * cellOverlap ex v1.ny (yib.get (ix % yib.nx)) (yob.get (ix % yob.nx) k) (yob.get (ix % yob.nx) (k+1)) i ≤
      ∑ i ∈ range v1.ny, zv (v2.get ix i) * cellOverlap ex v1.ny (yib.get (ix % yib.nx)) (yob.get (ix % yob.nx) k) (yob.get (ix % yob.nx) (k+1)) i :=
    Finset.sum_le_sum fun i hi => mul_le_mul_of_nonneg_right (hz i hi) (cellOverlap_nonneg _ _ _ _ _ i)
  cases conserv with
  | true =>
    have c1 := C09_cellave1d_cell v1 yib yob ex hg ix k hix hk
    have c2 := C09_cellave1d_cell v2 yib yob ex hg2 ix k (by rw [hx]; exact hix) hk
    dsimp only at c1 c2
    rw [hy] at c2
    rw [c1, c2]
    refine ⟨by simp, fun a b ha hb => ?_⟩
    obtain rfl := Option.some.inj ha
    obtain rfl := Option.some.inj hb
    by_cases e : yob.get (ix % yob.nx) k = yob.get (ix % yob.nx) (k+1)
    · rw [if_pos e, if_pos e]
    · rw [if_neg e, if_neg e]
      exact div_le_div_of_nonneg_right hS (by linarith)
  | false =>
    rcases eq_or_lt_of_le ho with e | e
    · rw [C10_cellave1d_zero_width v1 yib yob ex false hg ix k hix hk e, C10_cellave1d_zero_width v2 yib yob ex false hg2 ix k (by rw [hx]; exact hix) hk e]
      exact ⟨Iff.rfl, fun a b ha hb => by rw [← Option.some.inj ha, ← Option.some.inj hb]⟩
    · have c1 := C10_cellave1d_mean v1 yib yob ex hg ix k hix hk e
      have c2 := C10_cellave1d_mean v2 yib yob ex hg2 ix k (by rw [hx]; exact hix) hk e
      dsimp only at c1 c2
      rw [hy] at c2
      have hW : ∑ i ∈ range v1.ny, okv (v2.get ix i) * cellOverlap ex v1.ny (yib.get (ix % yib.nx)) (yob.get (ix % yob.nx) k) (yob.get (ix % yob.nx) (k+1)) i =
          ∑ i ∈ range v1.ny, okv (v1.get ix i) * cellOverlap ex v1.ny (yib.get (ix % yib.nx)) (yob.get (ix % yob.nx) k) (yob.get (ix % yob.nx) (k+1)) i :=
        Finset.sum_congr rfl fun i hi => by rw [hok i hi]
      rw [hW] at c2
      rw [c1, c2]
      split
      · exact ⟨Iff.rfl, fun a b ha => by simp at ha⟩
      · refine ⟨by simp, fun a b ha hb => ?_⟩
        obtain rfl := Option.some.inj ha
        obtain rfl := Option.some.inj hb
        refine div_le_div_of_nonneg_right hS (Finset.sum_nonneg fun i _ => mul_nonneg ?_ (cellOverlap_nonneg _ _ _ _ _ i))
        unfold okv; split <;> norm_num

/-! ## filters -/

theorem availWeight_mask (d1 d2 : LArr V) (k : LArr ℚ) (hsh : d2.shape = d1.shape) (h : ∀ q, InShape d1.shape q → BelowM (d1.val q) (d2.val q)) (p : List Nat) :
    availWeight d2 k p = availWeight d1 k p := by
  unfold availWeight
  rw [hsh]
  congr 1
  refine List.map_congr_left fun q hq => ?_
  have := (h q ((mem_positions _ _).1 hq)).1
  revert this
  cases d1.val q <;> cases d2.val q <;> simp

theorem availSum_order (d1 d2 : LArr V) (k : LArr ℚ) (hk : KNonneg k) (hsh : d2.shape = d1.shape) (h : ∀ q, InShape d1.shape q → BelowM (d1.val q) (d2.val q)) (p : List Nat) :
    availSum d1 k p ≤ availSum d2 k p := by
  unfold availSum
  rw [hsh]
  refine List.sum_le_sum fun q hq => ?_
  have h1 := (h q ((mem_positions _ _).1 hq)).1
  have h2 := (h q ((mem_positions _ _).1 hq)).2
  revert h1 h2
  cases d1.val q <;> cases d2.val q <;> simp
  intro h2
  exact mul_le_mul_of_nonneg_left (h2 _ _ rfl rfl) (kAt_nonneg k hk p q)

/-- **C186 (filters).** With nonnegative weights, larger data, missing at the same places, give larger filtered data, missing at the same places, normalised or not. -/
theorem C186_convolve (d1 d2 r1 r2 : LArr V) (k : LArr ℚ) (hk : KNonneg k) (hsh : d2.shape = d1.shape)
    (h : ∀ q, InShape d1.shape q → BelowM (d1.val q) (d2.val q)) (normalize : Bool)
    (h1 : convolveNd d1 k normalize = .ok r1) (h2 : convolveNd d2 k normalize = .ok r2) (p : List Nat) : BelowM (r1.val p) (r2.val p) := by
  by_cases hl : d1.shape.length = k.shape.length
  · rw [convolveNd_all d1 k hl] at h1
    rw [convolveNd_all d2 k (by rw [hsh]; exact hl)] at h2
    injection h1 with h1
    injection h2 with h2
    subst h1 h2
    dsimp only
    have hany : (positions d2.shape).any (fun q => (d2.val q).isNone) = (positions d1.shape).any (fun q => (d1.val q).isNone) := by
      rw [hsh, Bool.eq_iff_iff, List.any_eq_true, List.any_eq_true]
      constructor <;> rintro ⟨q, hq, hn⟩ <;> refine ⟨q, hq, ?_⟩ <;> rw [Option.isNone_iff_eq_none] at hn ⊢
      · exact (h q ((mem_positions _ _).1 hq)).1.2 hn
      · exact (h q ((mem_positions _ _).1 hq)).1.1 hn
    rw [hany, availWeight_mask d1 d2 k hsh h p]
    have hS := availSum_order d1 d2 k hk hsh h p
    generalize availSum d1 k p = s1 at *
    generalize availSum d2 k p = s2 at *
    have hkS : 0 ≤ kSum k := by
      unfold kSum
      refine List.sum_nonneg fun x hx => ?_
      obtain ⟨j, hj, rfl⟩ := List.mem_map.1 hx
      exact hk j ((mem_positions _ _).1 hj)
    have hw : 0 ≤ min (max (availWeight d1 k p) 0) (kSum k) := le_min (le_max_right _ _) hkS
    generalize min (max (availWeight d1 k p) 0) (kSum k) = w at *
    split
    · exact ⟨Iff.rfl, fun a b ha => by simp at ha⟩
    · split
      · by_cases hz : w = 0
        · subst hz; exact ⟨by simp [div], fun a b ha => by simp [div] at ha⟩
        · rw [div_some hz, div_some hz]
          refine ⟨by simp, fun a b ha hb => ?_⟩
          rw [← Option.some.inj ha, ← Option.some.inj hb]
          exact div_le_div_of_nonneg_right hS hw
      · refine ⟨by simp, fun a b ha hb => ?_⟩
        rw [← Option.some.inj ha, ← Option.some.inj hb]
        exact hS
  · rw [convolveNd_bad d1 k hl] at h1; exact absurd h1 (by simp)

/-- **C186 (`erode_mask`).** With nonnegative weights and any number of turns, larger data, missing at the same places, give larger eroded data, missing at
the same places. -/
theorem C186_erode (d1 d2 : LArr V) (spec : KSpec) (k : LArr ℚ) (hk1 : ErodeKernel d1 spec k) (hn : KNonneg k) (hd : d2.dims = d1.dims)
    (hsh : d2.shape = d1.shape) (h : ∀ q, InShape d1.shape q → BelowM (d1.val q) (d2.val q)) (n : Int) :
    ∃ r1 r2, erodeMaskN d1 n spec = .ok r1 ∧ erodeMaskN d2 n spec = .ok r2 ∧ r1.dims = d1.dims ∧ r1.shape = d1.shape ∧ r2.dims = d1.dims ∧ r2.shape = d1.shape ∧
      ∀ q, InShape d1.shape q → BelowM (r1.val q) (r2.val q) := by
  have he : erodeKernel d2 spec = erodeKernel d1 spec := by unfold erodeKernel; rw [hd]
  unfold erodeMaskN
  rw [he, hk1.made]
  show ∃ r1 r2, erodeIter k n.toNat d1 = .ok r1 ∧ erodeIter k n.toNat d2 = .ok r2 ∧ _
  have f1 := hk1.fits
  have f2 : Fits d2 k := fill_fits f1 hd hsh
  clear hk1 he
  generalize n.toNat = m
  induction m generalizing d1 d2 with
  | zero => exact ⟨d1, d2, rfl, rfl, rfl, rfl, hd, hsh, h⟩
  | succ m ih =>
    obtain ⟨c1, e1, a1, b1, x1, y1, z1⟩ := fill_ok d1 k f1
    obtain ⟨c2, e2, a2, b2, x2, y2, z2⟩ := fill_ok d2 k f2
    have hc := C186_convolve d1 d2 c1 c2 k hn hsh h true a1 a2
    obtain ⟨r1, r2, i1, i2, i3, i4, i5, i6, i7⟩ := ih e1 e2 (by rw [x1, x2, hd]) (by rw [y1, y2, hsh]) (by
      intro q hq
      rw [y1] at hq
      rw [z1, z2]
      have hq' := h q hq
      revert hq'
      cases d1.val q <;> cases d2.val q
      · exact fun _ => hc q
      · intro hq'; exact absurd hq'.1 (by simp)
      · intro hq'; exact absurd hq'.1 (by simp)
      · exact id) (fill_fits f1 x1 y1) (fill_fits f2 x2 y2)
    refine ⟨r1, r2, ?_, ?_, by rw [i3, x1], by rw [i4, y1], by rw [i5, x1], by rw [i6, y1], fun q hq => i7 q (by rw [y1]; exact hq)⟩
    · rw [erodeIter_succ k m d1 e1 b1]; exact i1
    · rw [erodeIter_succ k m d2 e2 b2]; exact i2

/-! ## extrapolation -/

/-- **C186 (extrapolation).** Larger data, missing at the same places, give larger extrapolated data. -/
theorem C186_extrap (v1 v2 : Mat) (mode : Extrap) (hsh : v1.SameShape v2) (h : ∀ i j, BelowM (v1.get i j) (v2.get i j)) (i j : Int) :
    Below ((extrap1d v1 mode).get i j) ((extrap1d v2 mode).get i j) := by
  unfold extrap1d
  by_cases hm : mode = .no
  · rw [if_pos hm, if_pos hm]; exact (h i j).2
  · rw [if_neg hm, if_neg hm]
    show Below (rowLoop (fun ix => extrapRow mode (v1.row ix)) (pyRange 0 v1.nx) v1.get i j) (rowLoop (fun ix => extrapRow mode (v2.row ix)) (pyRange 0 v2.nx) v2.get i j)
    rw [← hsh.1, ← ordc_iff]
    refine rowLoop_comb (c := ordc) (fun ix o1 o2 o3 ho => ?_) _ _ _ _ (fun i j => (ordc_iff _ _).2 (h i j).2) i j
    intro j
    have e1 : (v2.row ix).n = (v1.row ix).n := hsh.2.symm
    have e : getIminmax (v2.row ix) = getIminmax (v1.row ix) := by
      refine getIminmax_nan _ _ e1 fun i => ?_
      show isnan (v2.get ix (wrapIdx v2.ny i)) = isnan (v1.get ix (wrapIdx v1.ny i))
      rw [hsh.2]
      have := (h ix (wrapIdx v2.ny i)).1
      revert this
      cases v1.get ix (wrapIdx v2.ny i) <;> cases v2.get ix (wrapIdx v2.ny i) <;> simp [isnan]
    have ho' := ho
    simp only [OutComb] at ho'
    simp only [extrapRow, e, e1]
    split_ifs <;> simp only [ho'] <;> split_ifs <;> simp only [ho']

/-! ## examples, and what is not true -/

/-- the data of the counter-examples: zero, and a step up -/
def oZero : Mat := Mat.ofLists [[some 0, some 0, some 0, some 0]]
def oStep : Mat := Mat.ofLists [[some 0, some 0, some 1, some 1]]
def oYi : Mat := Mat.ofLists [[some 0, some 1, some 2, some 3]]
def oYo : Mat := Mat.ofLists [[some (1 / 2), some (5 / 2)]]

/-- C186 says nothing of the cubic and Hermite interpolations, for which it is not true: where the larger data make a step, the result is smaller than with the smaller data. -/
theorem cubic_hermit_overshoot :
    (∀ i j, BelowM (oZero.get i j) (oStep.get i j)) ∧
    (cubic1d oZero oYi oYo).get 0 0 = some 0 ∧ (cubic1d oStep oYi oYo).get 0 0 = some (-1 / 8) ∧
    (hermit1d oZero oYi oYo 0 0).get 0 0 = some 0 ∧ (hermit1d oStep oYi oYo 0 0).get 0 0 = some (-1 / 16) := by
  refine ⟨?_, by decide +kernel, by decide +kernel, by decide +kernel, by decide +kernel⟩
  intro i j
  unfold oZero oStep Mat.ofLists
  dsimp only
  by_cases hij : 0 ≤ i ∧ 0 ≤ j
  · rw [if_pos hij, if_pos hij]
    rcases i.toNat with _ | a
    · rcases j.toNat with _ | _ | _ | _ | b <;> refine ⟨by simp, fun x y hx hy => ?_⟩ <;> simp at hx hy <;> rw [← hx, ← hy] <;> norm_num
    · exact ⟨by simp, fun x y hx => by simp at hx⟩
  · rw [if_neg hij, if_neg hij]
    exact ⟨Iff.rfl, fun x y hx => by simp at hx⟩

/-- the hypotheses of the theorems are met by these data, and the results differ -/
example : oZero.SameShape oStep ∧ (linear1d oZero oYi oYo).get 0 1 = some 0 ∧ (linear1d oStep oYi oYo).get 0 1 = some 1 :=
  ⟨⟨rfl, rfl⟩, by decide +kernel, by decide +kernel⟩
example : Below ((linear1d oZero oYi oYo).get 0 1) ((linear1d oStep oYi oYo).get 0 1) :=
  (C186_interp oZero oStep oYi oYo ⟨rfl, rfl⟩ (fun i j => (cubic_hermit_overshoot.1 i j).2) 0 1).1

/-- without the same missing values, a smaller value may be the only one to be averaged -/
example : (cellave1d ⟨1, 2, fun _ j => [some 5, none].getD j none⟩ ⟨1, 3, fun _ j => [0, 1, 2].getD j 0⟩ ⟨1, 2, fun _ j => [0, 2].getD j 0⟩ false .no).get 0 0 = some 5 ∧
    (cellave1d ⟨1, 2, fun _ j => [some 5, some 1].getD j none⟩ ⟨1, 3, fun _ j => [0, 1, 2].getD j 0⟩ ⟨1, 2, fun _ j => [0, 2].getD j 0⟩ false .no).get 0 0 = some 3 := by
  decide +kernel
example : ∃ k, ErodeKernel (eData [[some 1, none, none], [none, none, some 9]]) (.da (shapiroKernel ["y", "x"])) k ∧ KNonneg k := by
  obtain ⟨k, h1, h2, _⟩ := shapiro_erode (eData [[some 1, none, none], [none, none, some 9]]) ⟨by decide, by decide⟩ "y" "x" (by decide) (by decide) (by decide)
  exact ⟨k, h1, h2⟩

end Xoa
