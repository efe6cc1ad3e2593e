import Verif.OutputPointProps
import Verif.EdgesUnitsProps

/-!
# C192: cell averages in one or several steps

Exact arithmetic. Edges increase along each row (`CellGrid`).
-/

namespace Xoa
open V Finset

/-! ## one output cell -/

/-- **C192 (one cell).** The average over an output cell depends on the edges of this cell, not on the other output cells: the same cell in another output grid has the same average,
conservative or not, with any extrapolation. -/
theorem C192_cell (vari : NMat V) (yib yob yob' : NMat ℚ) (conserv : Bool) (ex : CExtrap) (hg : CellGrid vari yib yob) (hg' : CellGrid vari yib yob')
    (ix k k' : Nat) (hix : ix < vari.nx) (hk : k < yob.ny - 1) (hk' : k' < yob'.ny - 1)
    (h0 : yob'.get (ix % yob'.nx) k' = yob.get (ix % yob.nx) k) (h1 : yob'.get (ix % yob'.nx) (k' + 1) = yob.get (ix % yob.nx) (k + 1)) :
    (cellave1d vari yib yob' conserv ex).get ix k' = (cellave1d vari yib yob conserv ex).get ix k := by
  rw [cellave1d_get vari yib yob conserv ex hg.nxi hg.asci hg.asco hg.nxib hg.nxo ix k hix hk,
    cellave1d_get vari yib yob' conserv ex hg'.nxi hg'.asci hg'.asco hg'.nxib hg'.nxo ix k' hix hk', h0, h1]

/-! ## overlaps -/

theorem overlap_comm (a b c d : ℚ) : overlap a b c d = overlap c d a b := by
  unfold overlap; rw [min_comm, max_comm a c]

theorem overlap_inside (a b c d : ℚ) (h0 : c ≤ a) (h1 : b ≤ d) (h : a ≤ b) : overlap a b c d = b - a := by
  unfold overlap; rw [min_eq_left h1, max_eq_left h0, max_eq_right (by linarith)]

theorem overlap_below (a b c d : ℚ) (h : b ≤ c) : overlap a b c d = 0 := by
  unfold overlap
  refine max_eq_left ?_
  have := min_le_left b d
  have := le_max_right a c
  linarith

theorem overlap_above (a b c d : ℚ) (h : d ≤ a) : overlap a b c d = 0 := by
  rw [overlap_comm]; exact overlap_below c d a b h

/-- edges in order -/
theorem edges_mono (f : Nat → ℚ) (n : Nat) (hf : ∀ i, i < n → f i ≤ f (i + 1)) : ∀ i j, i ≤ j → j ≤ n → f i ≤ f j := by
  intro i j hij
  induction j, hij using Nat.le_induction with
  | base => intro _; exact le_refl _
  | succ j _ ih => intro hj; exact le_trans (ih (by omega)) (hf j (by omega))

/-- without extrapolation, the overlap is that of the cells -/
theorem cellOverlap_no (n : Nat) (b : Nat → ℚ) (o0 o1 : ℚ) (i : Nat) : cellOverlap .no n b o0 o1 i = overlap (b i) (b (i + 1)) o0 o1 := by
  simp [cellOverlap, cellBounds]

/-- the integral over an output cell, conservative -/
theorem cell_integral (vari : NMat V) (yib yob : NMat ℚ) (hg : CellGrid vari yib yob) (ix k : Nat) (hix : ix < vari.nx) (hk : k < yob.ny - 1) :
    zv ((cellave1d vari yib yob true .no).get ix k) * (yob.get (ix % yob.nx) (k + 1) - yob.get (ix % yob.nx) k) =
      ∑ i ∈ range vari.ny, zv (vari.get ix i) * overlap (yib.get (ix % yib.nx) i) (yib.get (ix % yib.nx) (i + 1)) (yob.get (ix % yob.nx) k) (yob.get (ix % yob.nx) (k + 1)) := by
  have hc := C09_cellave1d_cell vari yib yob .no hg ix k hix hk
  dsimp only at hc
  rw [hc]
  simp only [cellOverlap_no]
  by_cases he : yob.get (ix % yob.nx) k = yob.get (ix % yob.nx) (k + 1)
  · rw [if_pos he, ← he, sub_self, mul_zero]
    symm
    refine Finset.sum_eq_zero fun i _ => ?_
    rcases le_total (yib.get (ix % yib.nx) (i + 1)) (yob.get (ix % yob.nx) k) with h | h
    · rw [overlap_below _ _ _ _ h, mul_zero]
    · unfold overlap
      have e : max (0 : ℚ) (min (yib.get (ix % yib.nx) (i + 1)) (yob.get (ix % yob.nx) k) - max (yib.get (ix % yib.nx) i) (yob.get (ix % yob.nx) k)) = 0 := by
        refine max_eq_left ?_
        have := min_le_right (yib.get (ix % yib.nx) (i + 1)) (yob.get (ix % yob.nx) k)
        have := le_max_right (yib.get (ix % yib.nx) i) (yob.get (ix % yob.nx) k)
        linarith
      rw [e, mul_zero]
  · rw [if_neg he]
    have : yob.get (ix % yob.nx) (k + 1) - yob.get (ix % yob.nx) k ≠ 0 := fun h => he (by linarith)
    simp only [zv, Option.getD_some]
    exact div_mul_cancel₀ _ this

/-- the average from the integral -/
theorem cell_of_integral (vari : NMat V) (yib yob : NMat ℚ) (hg : CellGrid vari yib yob) (ix k : Nat) (hix : ix < vari.nx) (hk : k < yob.ny - 1) :
    (cellave1d vari yib yob true .no).get ix k = some
      (if yob.get (ix % yob.nx) k = yob.get (ix % yob.nx) (k + 1) then 0 else
        (∑ i ∈ range vari.ny, zv (vari.get ix i) * overlap (yib.get (ix % yib.nx) i) (yib.get (ix % yib.nx) (i + 1)) (yob.get (ix % yob.nx) k) (yob.get (ix % yob.nx) (k + 1))) /
          (yob.get (ix % yob.nx) (k + 1) - yob.get (ix % yob.nx) k)) := by
  have hc := C09_cellave1d_cell vari yib yob .no hg ix k hix hk
  dsimp only at hc
  rw [hc]
  simp only [cellOverlap_no]

/-! ## two steps -/

/-- each edge of the coarse cells of a row is an edge of the fine cells: the edge number `m k` -/
structure Nested (yof yoc : NMat ℚ) (ix : Nat) (m : Nat → Nat) : Prop where
  edge : ∀ k, k ≤ yoc.ny - 1 → yoc.get (ix % yoc.nx) k = yof.get (ix % yof.nx) (m k)
  mono : ∀ k, k < yoc.ny - 1 → m k ≤ m (k + 1)
  range : ∀ k, k ≤ yoc.ny - 1 → m k ≤ yof.ny - 1

/-- sum over the fine cells of a coarse cell -/
theorem sum_nested (f : Nat → ℚ) (n p q : Nat) (hf : ∀ i, i < n → f i ≤ f (i + 1)) (hpq : p ≤ q) (hq : q ≤ n) (g : Nat → ℚ) :
    ∑ j ∈ range n, g j * overlap (f j) (f (j + 1)) (f p) (f q) = ∑ j ∈ range (q - p), g (p + j) * (f (p + j + 1) - f (p + j)) := by
  have hm := edges_mono f n hf
  rw [← Finset.sum_filter_add_sum_filter_not (range n) (fun j => p ≤ j ∧ j < q)]
  have hz : ∑ j ∈ (range n).filter (fun j => ¬ (p ≤ j ∧ j < q)), g j * overlap (f j) (f (j + 1)) (f p) (f q) = 0 := by
    refine Finset.sum_eq_zero fun j hj => ?_
    obtain ⟨h1, h2⟩ := Finset.mem_filter.1 hj
    have h1 := mem_range.1 h1
    by_cases h : j < p
    · rw [overlap_below _ _ _ _ (hm (j + 1) p (by omega) (by omega)), mul_zero]
    · rw [overlap_above _ _ _ _ (hm q j (by omega) (by omega)), mul_zero]
  rw [hz, add_zero]
  have e : (range n).filter (fun j => p ≤ j ∧ j < q) = (range (q - p)).image (fun j => p + j) := by
    ext j
    simp only [mem_filter, mem_range, mem_image]
    constructor
    · rintro ⟨_, h2, h3⟩; exact ⟨j - p, by omega, by omega⟩
    · rintro ⟨i, hi, rfl⟩; omega
  rw [e, Finset.sum_image (fun a _ b _ h => by simpa using h)]
  refine Finset.sum_congr rfl fun j hj => ?_
  have hj := mem_range.1 hj
  rw [overlap_inside _ _ _ _ (hm p (p + j) (by omega) (by omega)) (hm (p + j + 1) q (by omega) (by omega)) (hf (p + j) (by omega))]

/-- **C192 (two steps, conservative).** Averaging on fine cells, then averaging the result on coarse cells whose edges are edges of the fine cells, is averaging on the coarse cells at once:
conservative averages of any data, with missing values, on cells that can extend out of the data. -/
theorem C192_two_steps (vari : NMat V) (yib yof yoc : NMat ℚ) (hf : CellGrid vari yib yof) (hc : CellGrid vari yib yoc)
    (ix k : Nat) (m : Nat → Nat) (hn : Nested yof yoc ix m) (hix : ix < vari.nx) (hk : k < yoc.ny - 1) :
    (cellave1d (cellave1d vari yib yof true .no) yof yoc true .no).get ix k = (cellave1d vari yib yoc true .no).get ix k := by
  have hmx : max vari.nx yof.nx = vari.nx := Nat.max_eq_left hf.nxi
  have hfx := Nat.mod_lt ix hf.nxo
  have hbx := Nat.mod_lt ix hf.nxib
  have hg2 : CellGrid (cellave1d vari yib yof true .no) yof yoc :=
    ⟨by show yoc.nx ≤ max vari.nx yof.nx; rw [hmx]; exact hc.nxi, hf.nxo, hc.nxo, fun r i hr hi => hf.asco r i hr hi, hc.asco⟩
  rw [cell_of_integral _ yof yoc hg2 ix k (by show ix < max vari.nx yof.nx; omega) hk, cell_of_integral vari yib yoc hc ix k hix hk]
  by_cases he : yoc.get (ix % yoc.nx) k = yoc.get (ix % yoc.nx) (k + 1)
  · rw [if_pos he, if_pos he]
  · rw [if_neg he, if_neg he]
    congr 2
    rw [hn.edge k (by omega), hn.edge (k + 1) (by omega)]
    show ∑ j ∈ range (yof.ny - 1), _ = _
    rw [sum_nested (yof.get (ix % yof.nx)) (yof.ny - 1) (m k) (m (k + 1)) (fun i hi => hf.asco _ i hfx hi) (hn.mono k hk) (hn.range (k + 1) (by omega))
      (fun j => zv ((cellave1d vari yib yof true .no).get ix j))]
    have h1 : ∀ j ∈ range (m (k + 1) - m k), zv ((cellave1d vari yib yof true .no).get ix (m k + j)) * (yof.get (ix % yof.nx) (m k + j + 1) - yof.get (ix % yof.nx) (m k + j)) =
        ∑ i ∈ range vari.ny, zv (vari.get ix i) * overlap (yib.get (ix % yib.nx) i) (yib.get (ix % yib.nx) (i + 1)) (yof.get (ix % yof.nx) (m k + j)) (yof.get (ix % yof.nx) (m k + j + 1)) := by
      intro j hj
      have hj := mem_range.1 hj
      have := hn.range (k + 1) (by omega)
      exact cell_integral vari yib yof hf ix (m k + j) hix (by omega)
    rw [Finset.sum_congr rfl h1, Finset.sum_comm]
    refine Finset.sum_congr rfl fun i hi => ?_
    rw [← Finset.mul_sum]
    congr 1
    have hr := hn.range (k + 1) (by omega)
    have := sum_overlap (yib.get (ix % yib.nx) i) (yib.get (ix % yib.nx) (i + 1)) (hf.asci _ i hbx (mem_range.1 hi)) (fun j => yof.get (ix % yof.nx) (m k + j)) (m (k + 1) - m k)
      (fun j hj => hf.asco _ (m k + j) hfx (by omega))
    rw [show m k + (m (k + 1) - m k) = m (k + 1) by have := hn.mono k hk; omega, Nat.add_zero] at this
    exact this

/-! ## plain averages -/

/-- the data of the row are valid and cover the output cell number `k` -/
structure Covered (vari : NMat V) (yib yob : NMat ℚ) (ix k : Nat) : Prop where
  valid : ∀ i, i < vari.ny → vari.get ix i ≠ none
  width : yob.get (ix % yob.nx) k < yob.get (ix % yob.nx) (k + 1)
  lo : yib.get (ix % yib.nx) 0 ≤ yob.get (ix % yob.nx) k
  hi : yob.get (ix % yob.nx) (k + 1) ≤ yib.get (ix % yib.nx) vari.ny

/-- **C192 (plain and conservative).** Where valid data cover an output cell, the plain average and the conservative one are the same number. -/
theorem C192_covered (vari : NMat V) (yib yob : NMat ℚ) (hg : CellGrid vari yib yob) (ix k : Nat) (hix : ix < vari.nx) (hk : k < yob.ny - 1) (hc : Covered vari yib yob ix k) :
    ∃ r, (cellave1d vari yib yob false .no).get ix k = some r ∧ (cellave1d vari yib yob true .no).get ix k = some r := by
  have hbx := Nat.mod_lt ix hg.nxib
  have h := C10_cellave1d_mean vari yib yob .no hg ix k hix hk hc.width
  dsimp only at h
  simp only [cellOverlap_no] at h
  have hW : ∑ i ∈ range vari.ny, okv (vari.get ix i) * overlap (yib.get (ix % yib.nx) i) (yib.get (ix % yib.nx) (i + 1)) (yob.get (ix % yob.nx) k) (yob.get (ix % yob.nx) (k + 1)) =
      yob.get (ix % yob.nx) (k + 1) - yob.get (ix % yob.nx) k := by
    have e : ∀ i ∈ range vari.ny, okv (vari.get ix i) * overlap (yib.get (ix % yib.nx) i) (yib.get (ix % yib.nx) (i + 1)) (yob.get (ix % yob.nx) k) (yob.get (ix % yob.nx) (k + 1)) =
        overlap (yob.get (ix % yob.nx) k) (yob.get (ix % yob.nx) (k + 1)) (yib.get (ix % yib.nx) i) (yib.get (ix % yib.nx) (i + 1)) := by
      intro i hi
      have hv := hc.valid i (mem_range.1 hi)
      obtain ⟨x, hx⟩ := Option.ne_none_iff_exists'.1 hv
      rw [hx, overlap_comm]
      simp [okv, isnan]
    rw [Finset.sum_congr rfl e, sum_overlap _ _ hc.width.le _ _ (fun i hi => hg.asci _ i hbx hi), overlap_inside _ _ _ _ hc.lo hc.hi hc.width.le]
  rw [hW, if_neg (by have := hc.width; intro h; linarith)] at h
  refine ⟨_, h, ?_⟩
  rw [cell_of_integral vari yib yob hg ix k hix hk, if_neg hc.width.ne]

/-- **C192 (two steps, plain).** The same in two steps for plain averages, where valid data cover the fine cells. -/
theorem C192_two_steps_plain (vari : NMat V) (yib yof yoc : NMat ℚ) (hf : CellGrid vari yib yof) (hc : CellGrid vari yib yoc)
    (ix k : Nat) (m : Nat → Nat) (hn : Nested yof yoc ix m) (hix : ix < vari.nx) (hk : k < yoc.ny - 1) (hcov : ∀ j, j < yof.ny - 1 → Covered vari yib yof ix j)
    (hw : yoc.get (ix % yoc.nx) k < yoc.get (ix % yoc.nx) (k + 1)) :
    ∃ r, (cellave1d (cellave1d vari yib yof false .no) yof yoc false .no).get ix k = some r ∧ (cellave1d vari yib yoc false .no).get ix k = some r := by
  have hmx : max vari.nx yof.nx = vari.nx := Nat.max_eq_left hf.nxi
  have hfx := Nat.mod_lt ix hf.nxo
  have hmono := edges_mono (yof.get (ix % yof.nx)) (yof.ny - 1) (fun i hi => hf.asco _ i hfx hi)
  have r0 := hn.range k (by omega)
  have r1 := hn.range (k + 1) (by omega)
  have hpos : 0 < yof.ny - 1 := by
    rcases Nat.eq_zero_or_pos (yof.ny - 1) with h | h
    · rw [hn.edge k (by omega), hn.edge (k + 1) (by omega), show m k = m (k + 1) by omega] at hw
      exact absurd hw (lt_irrefl _)
    · exact h
  have c0 := hcov 0 hpos
  have c1 := hcov (yof.ny - 1 - 1) (by omega)
  have hcc : Covered vari yib yoc ix k := by
    refine ⟨c0.valid, hw, ?_, ?_⟩
    · rw [hn.edge k (by omega)]
      exact le_trans c0.lo (hmono 0 (m k) (by omega) r0)
    · rw [hn.edge (k + 1) (by omega)]
      refine le_trans (hmono (m (k + 1)) (yof.ny - 1) r1 (le_refl _)) ?_
      have := c1.hi
      rwa [show yof.ny - 1 - 1 + 1 = yof.ny - 1 by omega] at this
  obtain ⟨r, hr, hr'⟩ := C192_covered vari yib yoc hc ix k hix hk hcc
  refine ⟨r, ?_, hr⟩
  have hg2 : ∀ b, CellGrid (cellave1d vari yib yof b .no) yof yoc := fun b =>
    ⟨by show yoc.nx ≤ max vari.nx yof.nx; rw [hmx]; exact hc.nxi, hf.nxo, hc.nxo, fun r i hr hi => hf.asco r i hr hi, hc.asco⟩
  have hsame : ∀ j, j < yof.ny - 1 → ∃ x, (cellave1d vari yib yof false .no).get ix j = some x ∧ (cellave1d vari yib yof true .no).get ix j = some x :=
    fun j hj => C192_covered vari yib yof hf ix j hix hj (hcov j hj)
  have hcov2 : Covered (cellave1d vari yib yof false .no) yof yoc ix k := by
    refine ⟨fun i hi => ?_, hw, ?_, ?_⟩
    · obtain ⟨x, hx, _⟩ := hsame i hi
      rw [hx]; exact Option.some_ne_none x
    · rw [hn.edge k (by omega)]; exact hmono 0 (m k) (by omega) r0
    · rw [hn.edge (k + 1) (by omega)]; exact hmono (m (k + 1)) (yof.ny - 1) r1 (le_refl _)
  obtain ⟨s, hs, hs'⟩ := C192_covered _ yof yoc (hg2 false) ix k (by show ix < max vari.nx yof.nx; omega) hk hcov2
  rw [hs]
  congr 1
  have e1 : (cellave1d (cellave1d vari yib yof false .no) yof yoc true .no).get ix k = (cellave1d (cellave1d vari yib yof true .no) yof yoc true .no).get ix k := by
    rw [cell_of_integral _ yof yoc (hg2 false) ix k (by show ix < max vari.nx yof.nx; omega) hk, cell_of_integral _ yof yoc (hg2 true) ix k (by show ix < max vari.nx yof.nx; omega) hk]
    congr 3
    refine Finset.sum_congr rfl fun j hj => ?_
    obtain ⟨x, hx, hx'⟩ := hsame j (mem_range.1 hj)
    rw [hx, hx']
  rw [hs', C192_two_steps vari yib yof yoc hf hc ix k m hn hix hk, hr'] at e1
  exact Option.some.inj e1

/-! ## the cells of the data -/

/-- **C192 (own cells).** Averaging on the cells of the data gives back the data: missing values too for plain averages, and data without missing values for conservative ones. -/
theorem C192_own_cells (vari : NMat V) (yib yob : NMat ℚ) (hg : CellGrid vari yib yob) (ix k : Nat) (hix : ix < vari.nx) (hny : yob.ny = vari.ny + 1) (hk : k < vari.ny)
    (hsame : ∀ i, i ≤ vari.ny → yob.get (ix % yob.nx) i = yib.get (ix % yib.nx) i) (hw : yob.get (ix % yob.nx) k < yob.get (ix % yob.nx) (k + 1)) :
    (cellave1d vari yib yob false .no).get ix k = vari.get ix k ∧ ∀ x, vari.get ix k = some x → (cellave1d vari yib yob true .no).get ix k = some x := by
  have hox := Nat.mod_lt ix hg.nxo
  have key : ∀ g : Nat → ℚ, ∑ i ∈ range vari.ny, g i * overlap (yib.get (ix % yib.nx) i) (yib.get (ix % yib.nx) (i + 1)) (yob.get (ix % yob.nx) k) (yob.get (ix % yob.nx) (k + 1)) =
      g k * (yob.get (ix % yob.nx) (k + 1) - yob.get (ix % yob.nx) k) := by
    intro g
    have := sum_nested (yob.get (ix % yob.nx)) vari.ny k (k + 1) (fun i hi => hg.asco _ i hox (by omega)) (by omega) (by omega) g
    rw [show k + 1 - k = 1 by omega, Finset.sum_range_one, Nat.add_zero] at this
    refine Eq.trans ?_ this
    refine Finset.sum_congr rfl fun i hi => ?_
    have := mem_range.1 hi
    rw [hsame i (by omega), hsame (i + 1) (by omega)]
  have hne : yob.get (ix % yob.nx) (k + 1) - yob.get (ix % yob.nx) k ≠ 0 := by intro h; linarith
  constructor
  · have h := C10_cellave1d_mean vari yib yob .no hg ix k hix (by omega) hw
    dsimp only at h
    simp only [cellOverlap_no] at h
    rw [key, key] at h
    rw [h]
    cases hv : vari.get ix k with
    | none => simp [okv, isnan]
    | some x =>
      have : okv (some x) = 1 := by simp [okv, isnan]
      rw [this, one_mul, if_neg hne]
      simp only [zv, Option.getD_some]
      rw [mul_div_cancel_right₀ _ hne]
  · intro x hx
    rw [cell_of_integral vari yib yob hg ix k hix (by omega), if_neg hw.ne, key, hx]
    simp only [zv, Option.getD_some]
    rw [mul_div_cancel_right₀ _ hne]

/-! ## `regrid1d` -/

theorem edgeAt_strict (d : Nat → ℚ) (n : Nat) (hn : 2 ≤ n) (hd : ∀ i, i + 1 < n → d i < d (i + 1)) (i : Nat) (hi : i < n) : edgeAt d n i < edgeAt d n (i + 1) := by
  unfold edgeAt
  rw [if_neg (Nat.succ_ne_zero i)]
  by_cases h0 : i = 0
  · subst h0
    rw [if_pos rfl, if_neg (by omega)]
    have := hd 0 (by omega)
    simp only [Nat.zero_add, Nat.sub_self]
    linarith
  · rw [if_neg h0, if_neg (by omega)]
    by_cases h1 : i + 1 = n
    · rw [if_pos h1]
      have := hd (n - 2) (by omega)
      rw [show n - 2 + 1 = n - 1 by omega] at this
      rw [show i - 1 = n - 2 by omega, show i = n - 1 by omega]
      linarith
    · rw [if_neg h1]
      have a := hd (i - 1) (by omega)
      have b := hd i (by omega)
      rw [show i - 1 + 1 = i by omega] at a
      rw [show i + 1 - 1 = i by omega]
      linarith

/-- the edges of the cells around a row -/
def edgesRow (m : Mat) (i j : Nat) : ℚ := ((edges1d .float 2 (-1) (List.replicate (m.ny + 1) 0) (rowList m i)).getD []).getD j 0

theorem rowList_length (m : Mat) (i : Nat) : (rowList m i).length = m.ny := by simp [rowList]

theorem edgesRow_eq (m : Mat) (i j : Nat) (h2 : 2 ≤ m.ny) (hj : j ≤ m.ny) : edgesRow m i j = edgeAt (ctr (rowList m i)) m.ny j := by
  unfold edgesRow
  rw [edges_at 2 (-1) _ (rowList m i) (by decide) (by rw [rowList_length]; exact h2) (by rw [rowList_length]; simp), rowList_length]
  simp only [Option.getD_some]
  rw [List.getD_eq_getElem?_getD, List.getElem?_map, List.getElem?_range (by omega)]
  rfl

/-- **C192 (`regrid1d`).** By cell averaging, regridding to the coordinate of the data gives back the data, missing values included: along a row where the coordinate increases and the
output coordinate has the same values (it can have another name). Rows are paired with their own coordinates (C19). -/
theorem C192_regrid1d (o : RegridOpts) (hm : NamedCellave o.method) (he : ExtrapKnown o.extrap) (da cin cout : LArr V) (dim0 dim1 : String)
    (h : FlushIn da cin cout dim0 dim1) (hc : Compat da cout dim0 dim1) (hp : PairOk da cin cout dim0 dim1)
    (pos : String → Nat) (hpos : ∀ d ∈ outDims da cout dim0 dim1, pos d < outSize da cout dim1 d)
    (hi : Increasing cin dim0 pos) (h2 : 2 ≤ cin.size dim0) (hsz : cout.size dim1 = cin.size dim0)
    (heq : ∀ k, k < cin.size dim0 → cout.at (moved pos dim1 k) = cin.at (moved pos dim0 k)) :
    ∃ out, regrid1d o da cin cout dim0 dim1 = .ok out ∧ out.at pos = da.at (moved pos dim0 (pos dim1)) := by
  obtain ⟨out, e, hdims, hsz', hat⟩ := C19_regrid1d_cellave_partial o hm he da cin cout dim0 dim1 h hc hp h2 (by omega) pos hpos
  have hj : pos dim1 < cout.size dim1 := by
    have := hpos dim1 (by unfold outDims; exact List.mem_append_right _ (List.mem_map.mpr ⟨dim0, h.d0, by simp⟩))
    unfold outSize at this
    simpa using this
  refine ⟨out, e, ?_⟩
  rw [hat pos (by intro d hd; rw [hsz' d hd]; exact hpos d (hdims ▸ hd))]
  have hrow : rowList (oneRow (cout.line dim1 pos)) 0 = rowList (oneRow (cin.line dim0 pos)) 0 := by
    unfold rowList
    show List.map _ (List.range (cout.size dim1)) = List.map _ (List.range (cin.size dim0))
    rw [hsz]
    refine List.map_congr_left fun k hk => ?_
    have := heq k (List.mem_range.1 hk)
    show ((oneRow (cout.line dim1 pos)).get _ (k : Nat)).getD 0 = ((oneRow (cin.line dim0 pos)).get _ (k : Nat)).getD 0
    have e1 : (oneRow (cout.line dim1 pos)).get ((0 : Nat) : Int) (k : Nat) = cout.at (moved pos dim1 k) := line_get cout dim1 pos k
    have e2 : (oneRow (cin.line dim0 pos)).get ((0 : Nat) : Int) (k : Nat) = cin.at (moved pos dim0 k) := line_get cin dim0 pos k
    rw [e1, e2, this]
  have hctr : ∀ k q, k < cin.size dim0 → cin.at (moved pos dim0 k) = some q → ctr (rowList (oneRow (cin.line dim0 pos)) 0) k = q := by
    intro k q hk hq
    have e2 : (oneRow (cin.line dim0 pos)).get ((0 : Nat) : Int) (k : Nat) = cin.at (moved pos dim0 k) := line_get cin dim0 pos k
    unfold ctr rowList
    rw [List.getD_eq_getElem?_getD, List.getElem?_map, List.getElem?_range (show k < (oneRow (cin.line dim0 pos)).ny from hk)]
    simp only [Option.map_some, Option.getD_some]
    rw [e2, hq]; rfl
  have hasc : ∀ k, k < cin.size dim0 → edgesRow (oneRow (cin.line dim0 pos)) 0 k < edgesRow (oneRow (cin.line dim0 pos)) 0 (k + 1) := by
    intro k hk
    rw [edgesRow_eq (oneRow (cin.line dim0 pos)) 0 k h2 (Nat.le_of_lt hk), edgesRow_eq (oneRow (cin.line dim0 pos)) 0 (k + 1) h2 hk]
    refine edgeAt_strict _ _ h2 (fun i hi' => ?_) k hk
    have hi' : i + 1 < cin.size dim0 := hi'
    obtain ⟨a, ha⟩ := hi.full i (by omega)
    obtain ⟨b, hb⟩ := hi.full (i + 1) hi'
    rw [hctr i a (by omega) ha, hctr (i + 1) b hi' hb]
    exact hi.asc i (i + 1) a b (by omega) hi' ha hb
  have hout : ∀ k, edgesRow (oneRow (cout.line dim1 pos)) 0 k = edgesRow (oneRow (cin.line dim0 pos)) 0 k := by
    intro k
    unfold edgesRow
    rw [hrow, show (oneRow (cout.line dim1 pos)).ny = (oneRow (cin.line dim0 pos)).ny from hsz]
  have hny : da.size dim0 = cin.size dim0 := (h.csz dim0 h.c0).symm
  have hg : CellGrid (oneRow (da.line dim0 pos)).toN ⟨1, cin.size dim0 + 1, fun i j => edgesRow (oneRow (cin.line dim0 pos)) i j⟩
      ⟨1, cout.size dim1 + 1, fun i j => edgesRow (oneRow (cout.line dim1 pos)) i j⟩ := by
    refine ⟨Nat.le_refl 1, Nat.one_pos, Nat.one_pos, ?_, ?_⟩
    · intro r i hr hi'
      have hi' : i < da.size dim0 := hi'
      obtain rfl : r = 0 := by simpa using hr
      exact (hasc i (by omega)).le
    · intro r i hr hi'
      have hi' : i < cout.size dim1 + 1 - 1 := hi'
      obtain rfl : r = 0 := by simpa using hr
      show edgesRow _ 0 i ≤ edgesRow _ 0 (i + 1)
      rw [hout, hout]
      exact (hasc i (by omega)).le
  have hres := (C192_own_cells _ _ _ hg 0 (pos dim1) Nat.one_pos (show cout.size dim1 + 1 = da.size dim0 + 1 by omega) (show pos dim1 < da.size dim0 by omega)
    (fun i _ => hout i) (by show edgesRow _ 0 _ < edgesRow _ 0 _; rw [hout, hout]; exact hasc _ (by omega))).1
  refine Eq.trans hres ?_
  exact line_get da dim0 pos (pos dim1)

/-! ## concrete cases -/

/-- data with a missing value on three cells, fine cells that extend out of the data, and coarse cells made of fine ones -/
def exCaV : NMat V := ⟨1, 3, fun _ j => ([some 1, none, some 4] : List V).getD j none⟩
def exCaB : NMat ℚ := ⟨1, 4, fun _ j => ([0, 1, 3, 4] : List ℚ).getD j 0⟩
def exCaF : NMat ℚ := ⟨1, 5, fun _ j => ([-1, 1 / 2, 2, 3, 7] : List ℚ).getD j 0⟩
def exCaC : NMat ℚ := ⟨1, 3, fun _ j => ([-1, 2, 7] : List ℚ).getD j 0⟩

theorem exCa_fine : CellGrid exCaV exCaB exCaF := by
  refine ⟨by decide, by decide, by decide, ?_, ?_⟩
  · intro r i _ hi
    show exCaB.get 0 i ≤ exCaB.get 0 (i + 1)
    rcases (show i = 0 ∨ i = 1 ∨ i = 2 by simp only [exCaV] at hi; omega) with rfl | rfl | rfl <;> decide +kernel
  · intro r k _ hk
    show exCaF.get 0 k ≤ exCaF.get 0 (k + 1)
    rcases (show k = 0 ∨ k = 1 ∨ k = 2 ∨ k = 3 by simp only [exCaF] at hk; omega) with rfl | rfl | rfl | rfl <;> decide +kernel

theorem exCa_coarse : CellGrid exCaV exCaB exCaC := by
  refine ⟨by decide, by decide, by decide, exCa_fine.asci, ?_⟩
  intro r k _ hk
  show exCaC.get 0 k ≤ exCaC.get 0 (k + 1)
  rcases (show k = 0 ∨ k = 1 by simp only [exCaC] at hk; omega) with rfl | rfl <;> decide +kernel

theorem exCa_nested : Nested exCaF exCaC 0 (fun k => 2 * k) := by
  refine ⟨?_, ?_, ?_⟩
  · intro k hk
    rcases (show k = 0 ∨ k = 1 ∨ k = 2 by simp only [exCaC] at hk; omega) with rfl | rfl | rfl <;> decide +kernel
  · intro k hk; omega
  · intro k hk; simp only [exCaC, exCaF] at hk ⊢; omega

example : (cellave1d (cellave1d exCaV exCaB exCaF true .no) exCaF exCaC true .no).get 0 1 = (cellave1d exCaV exCaB exCaC true .no).get 0 1 ∧
    (cellave1d exCaV exCaB exCaC true .no).get 0 1 = some (4 / 5) :=
  ⟨C192_two_steps exCaV exCaB exCaF exCaC exCa_fine exCa_coarse 0 1 _ exCa_nested (by decide) (by decide), by decide +kernel⟩

/-- regridding data (time, x, z) to their own depths (x, z) -/
example : ∃ out, regrid1d { method := .str "cellave".toList } exDa exCinX exCinX "z" "z" = .ok out ∧ out.at (exPos 1 0 0) = exDa.at (moved (exPos 1 0 0) "z" 0) :=
  C192_regrid1d { method := .str "cellave".toList } .name ⟨_, rfl⟩ exDa exCinX exCinX "z" "z"
    ⟨ofList_ok _ _ _ (by decide) rfl, ofList_ok _ _ _ (by decide) rfl, ofList_ok _ _ _ (by decide) rfl, by decide, by decide, by decide,
      by decide, by decide, by decide, by decide, by decide⟩ ⟨by decide, by decide⟩ (Or.inr ⟨by decide, by decide⟩)
    (exPos 1 0 0) (by decide +kernel) exIncreasing_in (by decide +kernel) rfl (fun _ _ => rfl)

end Xoa
