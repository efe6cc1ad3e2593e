import Verif.CellaveLemmas

/-!
# Properties C09, C10 (and the `cellave1d` part of C06)

`overlap a b c d` (CellaveLemmas) is the length of `[a,b] ∩ [c,d]`, `zv` replaces a NaN by 0
and `okv` is 1 for a valid value and 0 for NaN.
-/

namespace Xoa
open V Finset

/-! ### only the data inside the bounds matters -/

theorem caLo_congr (ex : CExtrap) (y y' : Nat → ℚ) (o0 : ℚ) (i : Nat) (h : y i = y' i) :
    caLo ex y o0 i = caLo ex y' o0 i := by unfold caLo; rw [h]

theorem caHi_congr (ex : CExtrap) (n : Nat) (y y' : Nat → ℚ) (o1 : ℚ) (i : Nat) (h : y (i+1) = y' (i+1)) :
    caHi ex n y o1 i = caHi ex n y' o1 i := by unfold caHi; rw [h]

theorem caInner_congr (conserv : Bool) (ex : CExtrap) (n : Nat) (y y' : Nat → ℚ) (va vb : Nat → V) (o0 o1 : ℚ)
    (h : ∀ i, i ≤ n → y i = y' i) :
    ∀ (l : List Nat), (∀ i ∈ l, i < n) → ∀ iyi0 wo acc,
      caInner conserv ex n y va vb o0 o1 l iyi0 wo acc = caInner conserv ex n y' va vb o0 o1 l iyi0 wo acc := by
  intro l
  induction l with
  | nil => intro _ _ _ _; rfl
  | cons i l ih =>
    intro hl iyi0 wo acc
    have hi : i < n := hl i (by simp)
    have ih' := ih (fun j hj => hl j (by simp [hj]))
    simp only [caInner]
    rw [caLo_congr ex y y' o0 i (h i (by omega)), caHi_congr ex n y y' o1 i (h (i+1) (by omega)), ih']
    simp only [ih']

theorem caCells_congr (conserv : Bool) (ex : CExtrap) (n no : Nat) (y y' yo yo' : Nat → ℚ) (va vb : Nat → V)
    (ix ixi : Nat) (h : ∀ i, i ≤ n → y i = y' i) (ho : ∀ i, i ≤ no → yo i = yo' i) :
    ∀ (l : List Nat), (∀ i ∈ l, i < no) → ∀ iyi0 varo,
      caCells conserv ex n y yo va vb ix ixi l iyi0 varo = caCells conserv ex n y' yo' va vb ix ixi l iyi0 varo := by
  intro l
  induction l with
  | nil => intro _ _ _; rfl
  | cons i l ih =>
    intro hl iyi0 varo
    have hi : i < no := hl i (by simp)
    have ih' := ih (fun j hj => hl j (by simp [hj]))
    simp only [caCells]
    rw [ho i (by omega), ho (i+1) (by omega)]
    rw [caInner_congr conserv ex n y y' va vb _ _ h _ (by
      intro j hj; rw [List.mem_range'_1] at hj; omega)]
    simp only [ih']

/-- an array of edges extended by its last value -/
def clampTo (n : Nat) (y : Nat → ℚ) : Nat → ℚ := fun i => y (min i n)

theorem clampTo_eq (n : Nat) (y : Nat → ℚ) (i : Nat) (h : i ≤ n) : clampTo n y i = y i := by
  unfold clampTo; rw [min_eq_left h]

theorem clampTo_mono (n : Nat) (y : Nat → ℚ) (h : ∀ i, i < n → y i ≤ y (i + 1)) : Monotone (clampTo n y) := by
  apply monotone_nat_of_le_succ
  intro i
  unfold clampTo
  by_cases hi : i < n
  · rw [min_eq_left (by omega), min_eq_left (by omega)]; exact h i hi
  · rw [min_eq_right (by omega), min_eq_right (by omega)]

/-! ### specification of one output cell -/

/-- the edges of input cell `i` as seen from output cell `[o0, o1]`: first/last cells are
extended up to the output cell with the corresponding extrapolation option -/
def cellBounds (ex : CExtrap) (nyi : Nat) (yib : Nat → ℚ) (o0 o1 : ℚ) (i : Nat) : ℚ × ℚ :=
  (if (ex = .bellow ∨ ex = .both) ∧ i = 0 then min (yib 0) o0 else yib i,
   if (ex = .above ∨ ex = .both) ∧ i + 1 = nyi then max (yib nyi) o1 else yib (i + 1))

/-- overlap length of input cell `i` with the output cell `[o0, o1]` -/
def cellOverlap (ex : CExtrap) (nyi : Nat) (yib : Nat → ℚ) (o0 o1 : ℚ) (i : Nat) : ℚ :=
  overlap (cellBounds ex nyi yib o0 o1 i).1 (cellBounds ex nyi yib o0 o1 i).2 o0 o1

theorem caLo_bounds (ex : CExtrap) (nyi : Nat) (yib : Nat → ℚ) (o0 o1 : ℚ) (i : Nat) :
    caLo ex yib o0 i = (cellBounds ex nyi yib o0 o1 i).1 := by
  unfold caLo cellBounds
  dsimp only
  by_cases h : (ex = .bellow ∨ ex = .both) ∧ i = 0
  · rw [if_pos h]
    obtain ⟨h1, rfl⟩ := h
    by_cases hy : yib 0 > o0
    · rw [if_pos ⟨h1, rfl, hy⟩, min_eq_right (le_of_lt hy)]
    · rw [if_neg (fun c => hy c.2.2), min_eq_left (not_lt.1 hy)]
  · rw [if_neg h, if_neg (fun c => h ⟨c.1, c.2.1⟩)]

theorem caHi_bounds (ex : CExtrap) (nyi : Nat) (yib : Nat → ℚ) (o0 o1 : ℚ) (i : Nat) :
    caHi ex nyi yib o1 i = (cellBounds ex nyi yib o0 o1 i).2 := by
  unfold caHi cellBounds
  dsimp only
  by_cases h : (ex = .above ∨ ex = .both) ∧ i + 1 = nyi
  · rw [if_pos h]
    obtain ⟨h1, h2⟩ := h
    rw [h2]
    by_cases hy : yib nyi < o1
    · rw [if_pos ⟨h1, rfl, hy⟩, max_eq_right (le_of_lt hy)]
    · rw [if_neg (fun c => hy c.2.2), max_eq_left (not_lt.1 hy)]
  · rw [if_neg h, if_neg (fun c => h ⟨c.1, c.2.1⟩)]

theorem caW_eq (conserv : Bool) (ex : CExtrap) (nyi : Nat) (yib : Nat → ℚ) (o0 o1 : ℚ) (i : Nat) :
    caW conserv ex nyi yib o0 o1 i = cellOverlap ex nyi yib o0 o1 i / (if conserv then o1 - o0 else 1) := by
  unfold caW cellOverlap
  rw [caLo_bounds ex nyi yib o0 o1, caHi_bounds ex nyi yib o0 o1]

theorem cellOverlap_nonneg (ex : CExtrap) (nyi : Nat) (yib : Nat → ℚ) (o0 o1 : ℚ) (i : Nat) :
    0 ≤ cellOverlap ex nyi yib o0 o1 i := overlap_nonneg _ _ _ _

theorem cellOverlap_clamp (ex : CExtrap) (nyi : Nat) (yib : Nat → ℚ) (o0 o1 : ℚ) (i : Nat) (h : i < nyi) :
    cellOverlap ex nyi (clampTo nyi yib) o0 o1 i = cellOverlap ex nyi yib o0 o1 i := by
  unfold cellOverlap cellBounds
  rw [clampTo_eq _ _ i (by omega), clampTo_eq _ _ (i+1) (by omega), clampTo_eq _ _ nyi (le_refl _),
    clampTo_eq _ _ 0 (by omega)]

/-! ### whole array -/

/-- the row loop when `vari` has at least as many rows as the output -/
theorem cellave1d_get (vari : NMat V) (yib yob : NMat ℚ) (conserv : Bool) (ex : CExtrap)
    (hnx : yob.nx ≤ vari.nx)
    (hyi : ∀ r i, r < yib.nx → i < vari.ny → yib.get r i ≤ yib.get r (i + 1))
    (hyo : ∀ r k, r < yob.nx → k < yob.ny - 1 → yob.get r k ≤ yob.get r (k + 1))
    (hyib0 : 0 < yib.nx) (hyob0 : 0 < yob.nx)
    (ix k : Nat) (hix : ix < vari.nx) (hk : k < yob.ny - 1) :
    (cellave1d vari yib yob conserv ex).get ix k =
      caCellSpec conserv ex vari.ny (clampTo vari.ny (yib.get (ix % yib.nx))) (vari.get ix)
        (yob.get (ix % yob.nx) k) (yob.get (ix % yob.nx) (k + 1)) := by
  have key : ∀ n, n ≤ vari.nx → ∀ ix' k',
      (List.range n).foldl (fun varo ix =>
        caCells conserv ex vari.ny (yib.get (min (yib.nx - 1) (ix % yib.nx)))
          (yob.get (min (yob.nx - 1) (ix % yob.nx))) (vari.get ix)
          (vari.get (min (vari.nx - 1) (ix % vari.nx))) ix (min (vari.nx - 1) (ix % vari.nx))
          (List.range (yob.ny - 1)) 0 varo) (fun _ _ => some 0) ix' k' =
      if ix' < n ∧ k' < yob.ny - 1 then
        caCellSpec conserv ex vari.ny (clampTo vari.ny (yib.get (ix' % yib.nx))) (vari.get ix')
          (yob.get (ix' % yob.nx) k') (yob.get (ix' % yob.nx) (k' + 1)) else some 0 := by
    intro n
    induction n with
    | zero => intro _ ix' k'; simp
    | succ n ih =>
      intro hn ix' k'
      rw [List.range_succ, List.foldl_append]
      simp only [List.foldl_cons, List.foldl_nil]
      have ih := ih (by omega)
      generalize (List.range n).foldl _ _ = varo0 at ih ⊢
      have e1 : min (vari.nx - 1) (n % vari.nx) = n := by
        rw [Nat.mod_eq_of_lt (by omega)]; omega
      have e2 : min (yib.nx - 1) (n % yib.nx) = n % yib.nx := by
        have := Nat.mod_lt n hyib0; omega
      have e3 : min (yob.nx - 1) (n % yob.nx) = n % yob.nx := by
        have := Nat.mod_lt n hyob0; omega
      rw [e1, e2, e3]
      rw [caCells_congr conserv ex vari.ny (yob.ny - 1) (yib.get (n % yib.nx))
        (clampTo vari.ny (yib.get (n % yib.nx))) (yob.get (n % yob.nx))
        (clampTo (yob.ny - 1) (yob.get (n % yob.nx))) _ _ n n
        (fun i hi => (clampTo_eq _ _ i hi).symm) (fun i hi => (clampTo_eq _ _ i hi).symm)
        _ (by intro i hi; exact List.mem_range.1 hi)]
      rw [List.range_eq_range', caCells_spec conserv ex vari.ny _ _ (vari.get n) n
        (clampTo_mono _ _ (fun i hi => hyi _ i (Nat.mod_lt _ hyib0) hi))
        (clampTo_mono _ _ (fun i hi => hyo _ i (Nat.mod_lt _ hyob0) hi))
        _ 0 0 _ (Nat.zero_le _) (by intro _ _ _ h; omega)
        (by intro k' _ hk'; rw [ih, if_neg (by omega)])]
      by_cases hc : ix' = n
      · subst hc
        by_cases hk' : k' < yob.ny - 1
        · rw [if_pos ⟨rfl, by omega, by omega⟩, if_pos ⟨by omega, hk'⟩, clampTo_eq _ _ k' (by omega),
            clampTo_eq _ _ (k'+1) (by omega)]
        · rw [if_neg (by omega), if_neg (by omega), ih, if_neg (by omega)]
      · rw [if_neg (by omega), ih]
        by_cases hk' : ix' < n ∧ k' < yob.ny - 1
        · rw [if_pos hk', if_pos (by omega)]
        · rw [if_neg hk', if_neg (by omega)]
  have hm : max vari.nx yob.nx = vari.nx := by omega
  unfold cellave1d
  simp only [hm]
  rw [key vari.nx (le_refl _) ix k, if_pos ⟨hix, hk⟩]

/-! ### C09 -/

/-- What the caller must provide: edges in ascending order inside the arrays, no more
output coordinate rows than data rows. -/
structure CellGrid (vari : NMat V) (yib yob : NMat ℚ) : Prop where
  nxi : yob.nx ≤ vari.nx
  nxib : 0 < yib.nx
  nxo : 0 < yob.nx
  asci : ∀ r i, r < yib.nx → i < vari.ny → yib.get r i ≤ yib.get r (i + 1)
  asco : ∀ r k, r < yob.nx → k < yob.ny - 1 → yob.get r k ≤ yob.get r (k + 1)

/-- one cell, conservative: sum of the valid inputs weighted by the covered fraction -/
theorem C09_cellave1d_cell (vari : NMat V) (yib yob : NMat ℚ) (ex : CExtrap) (hg : CellGrid vari yib yob)
    (ix k : Nat) (hix : ix < vari.nx) (hk : k < yob.ny - 1) :
    let o := yob.get (ix % yob.nx)
    (cellave1d vari yib yob true ex).get ix k = some
      (if o k = o (k+1) then 0 else
        (∑ i ∈ range vari.ny, zv (vari.get ix i) *
          cellOverlap ex vari.ny (yib.get (ix % yib.nx)) (o k) (o (k+1)) i) / (o (k+1) - o k)) := by
  intro o
  rw [cellave1d_get vari yib yob true ex hg.nxi hg.asci hg.asco hg.nxib hg.nxo ix k hix hk]
  unfold caCellSpec
  by_cases h : yob.get (ix % yob.nx) k = yob.get (ix % yob.nx) (k + 1)
  · rw [if_pos h, if_pos h]
  · rw [if_neg h, if_neg h]
    simp only [if_true]
    congr 1
    rw [Finset.sum_div]
    apply Finset.sum_congr rfl
    intro i hi
    rw [caW_eq, cellOverlap_clamp _ _ _ _ _ _ (mem_range.1 hi)]
    simp only [if_true]
    rw [mul_div_assoc]

/-- **C09**: without extrapolation, the integral over the output cells equals the integral
of the valid inputs over their overlap with the extent of the output grid. -/
theorem C09_cellave1d_conserves (vari : NMat V) (yib yob : NMat ℚ) (hg : CellGrid vari yib yob)
    (ix : Nat) (hix : ix < vari.nx) :
    let o := yob.get (ix % yob.nx)
    let b := yib.get (ix % yib.nx)
    let out := cellave1d vari yib yob true .no
    ∑ k ∈ range (yob.ny - 1), zv (out.get ix k) * (o (k+1) - o k) =
      ∑ i ∈ range vari.ny, zv (vari.get ix i) * overlap (b i) (b (i+1)) (o 0) (o (yob.ny - 1)) := by
  intro o b out
  have h1 : ∀ k ∈ range (yob.ny - 1), zv (out.get ix k) * (o (k+1) - o k) =
      ∑ i ∈ range vari.ny, zv (vari.get ix i) * overlap (b i) (b (i+1)) (o k) (o (k+1)) := by
    intro k hk
    have hk := mem_range.1 hk
    have hc := C09_cellave1d_cell vari yib yob .no hg ix k hix hk
    change out.get ix k = _ at hc
    rw [hc]
    have hov : ∀ i, cellOverlap .no vari.ny b (o k) (o (k+1)) i = overlap (b i) (b (i+1)) (o k) (o (k+1)) := by
      intro i; simp [cellOverlap, cellBounds]
    by_cases he : o k = o (k+1)
    · have hz : ∀ i ∈ range vari.ny, zv (vari.get ix i) * overlap (b i) (b (i+1)) (o k) (o (k+1)) = 0 := by
        intro i hi
        have : overlap (b i) (b (i+1)) (o k) (o (k+1)) = 0 := by
          unfold overlap
          rw [← he, max_eq_left]
          have := min_le_right (b (i+1)) (o k)
          have := le_max_right (b i) (o k)
          linarith
        rw [this, mul_zero]
      rw [Finset.sum_eq_zero hz, ← he]; simp
    · change zv (some (if o k = o (k+1) then _ else _)) * _ = _
      rw [if_neg he]
      have : o (k+1) - o k ≠ 0 := fun h => he (by linarith)
      simp only [zv, Option.getD_some]
      rw [div_mul_cancel₀ _ this]
      apply Finset.sum_congr rfl
      intro i _
      change _ * cellOverlap .no vari.ny b (o k) (o (k+1)) i = _
      rw [hov]
  rw [Finset.sum_congr rfl h1, Finset.sum_comm]
  apply Finset.sum_congr rfl
  intro i hi
  rw [← Finset.mul_sum]
  congr 1
  have hxo := Nat.mod_lt ix hg.nxo
  have hxb := Nat.mod_lt ix hg.nxib
  exact sum_overlap (b i) (b (i+1)) (hg.asci _ i hxb (mem_range.1 hi)) o (yob.ny - 1)
    (fun k hk => hg.asco _ k hxo hk)

/-- **C09**, covering case: the total is conserved. -/
theorem C09_cellave1d_total (vari : NMat V) (yib yob : NMat ℚ) (hg : CellGrid vari yib yob)
    (ix : Nat) (hix : ix < vari.nx)
    (hlo : yob.get (ix % yob.nx) 0 ≤ yib.get (ix % yib.nx) 0)
    (hhi : yib.get (ix % yib.nx) vari.ny ≤ yob.get (ix % yob.nx) (yob.ny - 1)) :
    let o := yob.get (ix % yob.nx)
    let b := yib.get (ix % yib.nx)
    ∑ k ∈ range (yob.ny - 1), zv ((cellave1d vari yib yob true .no).get ix k) * (o (k+1) - o k) =
      ∑ i ∈ range vari.ny, zv (vari.get ix i) * (b (i+1) - b i) := by
  intro o b
  rw [C09_cellave1d_conserves vari yib yob hg ix hix]
  apply Finset.sum_congr rfl
  intro i hi
  have hi := mem_range.1 hi
  have hxb := Nat.mod_lt ix hg.nxib
  have hm := clampTo_mono vari.ny b (fun i h => hg.asci _ i hxb h)
  have h0 : b 0 ≤ b i := by
    have := hm (Nat.zero_le i); rwa [clampTo_eq _ _ 0 (by omega), clampTo_eq _ _ i (by omega)] at this
  have h1 : b (i+1) ≤ b vari.ny := by
    have := hm (show i + 1 ≤ vari.ny by omega)
    rwa [clampTo_eq _ _ _ (by omega), clampTo_eq _ _ _ (by omega)] at this
  have h2 : b i ≤ b (i+1) := hg.asci _ i hxb hi
  congr 1
  unfold overlap
  rw [min_eq_left (le_trans h1 hhi), max_eq_left (le_trans hlo h0), max_eq_right (by linarith)]

/-! ### C10 -/

/-- **C10**: each output cell of positive width is the overlap-weighted mean of the valid
inputs, NaN if no valid input overlaps it. -/
theorem C10_cellave1d_mean (vari : NMat V) (yib yob : NMat ℚ) (ex : CExtrap) (hg : CellGrid vari yib yob)
    (ix k : Nat) (hix : ix < vari.nx) (hk : k < yob.ny - 1)
    (hw : yob.get (ix % yob.nx) k < yob.get (ix % yob.nx) (k+1)) :
    let w := cellOverlap ex vari.ny (yib.get (ix % yib.nx)) (yob.get (ix % yob.nx) k) (yob.get (ix % yob.nx) (k+1))
    let W := ∑ i ∈ range vari.ny, okv (vari.get ix i) * w i
    (cellave1d vari yib yob false ex).get ix k =
      if W = 0 then none else some ((∑ i ∈ range vari.ny, zv (vari.get ix i) * w i) / W) := by
  intro w W
  rw [cellave1d_get vari yib yob false ex hg.nxi hg.asci hg.asco hg.nxib hg.nxo ix k hix hk]
  unfold caCellSpec
  rw [if_neg (ne_of_lt hw)]
  have hs : ∀ f : Nat → ℚ, ∑ i ∈ range vari.ny, f i * caW false ex vari.ny (clampTo vari.ny (yib.get (ix % yib.nx)))
      (yob.get (ix % yob.nx) k) (yob.get (ix % yob.nx) (k+1)) i = ∑ i ∈ range vari.ny, f i * w i := by
    intro f
    apply Finset.sum_congr rfl
    intro i hi
    rw [caW_eq, cellOverlap_clamp _ _ _ _ _ _ (mem_range.1 hi)]
    simp only [Bool.false_eq_true, if_false, div_one]
    rfl
  simp only [Bool.false_eq_true, if_false]
  rw [hs, hs]
  change (if W ≠ 0 then _ else _) = _
  by_cases h : W = 0
  · rw [if_neg (not_not.2 h), if_pos h]
  · rw [if_pos h, if_neg h]

/-- **C10**: bounds; NaN exactly when no valid input cell has a positive overlap. -/
theorem C10_cellave1d_bounds (vari : NMat V) (yib yob : NMat ℚ) (ex : CExtrap) (hg : CellGrid vari yib yob)
    (ix k : Nat) (hix : ix < vari.nx) (hk : k < yob.ny - 1)
    (hw : yob.get (ix % yob.nx) k < yob.get (ix % yob.nx) (k+1)) :
    let w := cellOverlap ex vari.ny (yib.get (ix % yib.nx)) (yob.get (ix % yob.nx) k) (yob.get (ix % yob.nx) (k+1))
    let out := (cellave1d vari yib yob false ex).get ix k
    (out = none ↔ ∀ i v, i < vari.ny → vari.get ix i = some v → w i = 0) ∧
    ∀ lo hi : ℚ, (∀ i v, i < vari.ny → vari.get ix i = some v → 0 < w i → lo ≤ v ∧ v ≤ hi) →
      ∀ r, out = some r → lo ≤ r ∧ r ≤ hi := by
  intro w out
  have hm := C10_cellave1d_mean vari yib yob ex hg ix k hix hk hw
  change out = (if ∑ i ∈ range vari.ny, okv (vari.get ix i) * w i = 0 then none else
    some ((∑ i ∈ range vari.ny, zv (vari.get ix i) * w i) / (∑ i ∈ range vari.ny, okv (vari.get ix i) * w i))) at hm
  have hwn : ∀ i, 0 ≤ w i := fun i => cellOverlap_nonneg _ _ _ _ _ i
  have hok : ∀ i, 0 ≤ okv (vari.get ix i) * w i := by
    intro i
    apply mul_nonneg _ (hwn i)
    unfold okv; split <;> norm_num
  have hiff : (∑ i ∈ range vari.ny, okv (vari.get ix i) * w i = 0) ↔
      ∀ i v, i < vari.ny → vari.get ix i = some v → w i = 0 := by
    rw [Finset.sum_eq_zero_iff_of_nonneg (fun i _ => hok i)]
    constructor
    · intro h i v hi hv
      have := h i (mem_range.2 hi)
      rw [hv] at this
      simpa [okv] using this
    · intro h i hi
      cases hv : vari.get ix i with
      | none => simp [okv]
      | some v => rw [h i v (mem_range.1 hi) hv]; simp
  constructor
  · rw [hm, ← hiff]
    split <;> simp_all
  · intro lo hi hb r hr
    rw [hm] at hr
    split at hr
    · simp at hr
    · rename_i hW
      have hWp : 0 < ∑ i ∈ range vari.ny, okv (vari.get ix i) * w i :=
        lt_of_le_of_ne (Finset.sum_nonneg (fun i _ => hok i)) (Ne.symm hW)
      injection hr with hr
      subst hr
      have hterm : ∀ i ∈ range vari.ny, lo * (okv (vari.get ix i) * w i) ≤ zv (vari.get ix i) * w i ∧
          zv (vari.get ix i) * w i ≤ hi * (okv (vari.get ix i) * w i) := by
        intro i hi'
        cases hv : vari.get ix i with
        | none => simp [okv, zv]
        | some v =>
          simp only [okv, zv, isnan_some, Bool.false_eq_true, if_false, one_mul, Option.getD_some]
          rcases eq_or_lt_of_le (hwn i) with h0 | h0
          · rw [← h0]; simp
          · have := hb i v (mem_range.1 hi') hv h0
            exact ⟨mul_le_mul_of_nonneg_right this.1 (hwn i), mul_le_mul_of_nonneg_right this.2 (hwn i)⟩
      constructor
      · rw [le_div_iff₀ hWp, Finset.mul_sum]
        exact Finset.sum_le_sum (fun i hi => (hterm i hi).1)
      · rw [div_le_iff₀ hWp, Finset.mul_sum]
        exact Finset.sum_le_sum (fun i hi => (hterm i hi).2)

/-- **C10**: a constant field stays constant wherever something overlaps. -/
theorem C10_cellave1d_const (vari : NMat V) (yib yob : NMat ℚ) (ex : CExtrap) (hg : CellGrid vari yib yob)
    (ix k : Nat) (hix : ix < vari.nx) (hk : k < yob.ny - 1)
    (hw : yob.get (ix % yob.nx) k < yob.get (ix % yob.nx) (k+1)) (c : ℚ)
    (hc : ∀ i, i < vari.ny → vari.get ix i = some c ∨ vari.get ix i = none) :
    (cellave1d vari yib yob false ex).get ix k = some c ∨ (cellave1d vari yib yob false ex).get ix k = none := by
  have hb := (C10_cellave1d_bounds vari yib yob ex hg ix k hix hk hw).2 c c (by
    intro i v hi hv _
    rcases hc i hi with h | h <;> rw [h] at hv <;> simp at hv
    subst hv; exact ⟨le_refl _, le_refl _⟩)
  cases h : (cellave1d vari yib yob false ex).get ix k with
  | none => right; rfl
  | some r =>
    left
    have := hb r h
    rw [le_antisymm this.2 this.1]

/-- An output cell of zero width is left at its initial value 0 (not NaN, not the local
value), whatever the data: outside the scope of C10, which is stated for positive widths. -/
theorem C10_cellave1d_zero_width (vari : NMat V) (yib yob : NMat ℚ) (ex : CExtrap) (conserv : Bool)
    (hg : CellGrid vari yib yob)
    (ix k : Nat) (hix : ix < vari.nx) (hk : k < yob.ny - 1)
    (hw : yob.get (ix % yob.nx) k = yob.get (ix % yob.nx) (k+1)) :
    (cellave1d vari yib yob conserv ex).get ix k = some 0 := by
  rw [cellave1d_get vari yib yob conserv ex hg.nxi hg.asci hg.asco hg.nxib hg.nxo ix k hix hk]
  unfold caCellSpec
  rw [if_pos hw]

/-! ### a concrete instance, and the row index problem (C06) -/

/-- one row of three cells `[0,1],[1,2],[2,4]` with values 1, NaN, 5 -/
def exCaVar : NMat V := ⟨1, 3, fun _ j => [some 1, none, some 5].getD j none⟩
def exCaYib : NMat ℚ := ⟨1, 4, fun _ j => [0, 1, 2, 4].getD j 0⟩
def exCaYob : NMat ℚ := ⟨1, 3, fun _ j => [1/2, 3, 6].getD j 0⟩

example : CellGrid exCaVar exCaYib exCaYob := by
  refine ⟨by decide, by decide, by decide, ?_, ?_⟩
  · intro r i _ hi
    have : i = 0 ∨ i = 1 ∨ i = 2 := by simp [exCaVar] at hi; omega
    rcases this with h | h | h <;> subst h <;> simp [exCaYib] <;> norm_num
  · intro r i _ hi
    have : i = 0 ∨ i = 1 := by simp [exCaYob] at hi; omega
    rcases this with h | h <;> subst h <;> simp [exCaYob] <;> norm_num

-- means of the two output cells: (1·0.5 + 5·1)/1.5 and 5
example : (cellave1d exCaVar exCaYib exCaYob false .no).get 0 0 = some (11/3) := by decide +kernel
example : (cellave1d exCaVar exCaYib exCaYob false .no).get 0 1 = some 5 := by decide +kernel
-- conservative: integrals 5.5/2.5 and 5/3
example : (cellave1d exCaVar exCaYib exCaYob true .no).get 0 0 = some (11/5) := by decide +kernel
example : (cellave1d exCaVar exCaYib exCaYob true .no).get 0 1 = some (5/3) := by decide +kernel

/-- **C69 is violated by `cellave1d`** when there are more output rows than data rows:
`varo[ixi, iyo] += vari[ix, iyi]*dyio` accumulates the contribution of output row 1 in
row 0, reading `vari[1]`, which is out of the bounds of a one-row array: two data arrays
that agree on all of their elements give different results. -/
theorem C69_cellave1d_rows_violated :
    ∃ (vari vari' : NMat V) (yib yob : NMat ℚ),
      vari.nx = 1 ∧ vari'.nx = 1 ∧ vari.ny = 1 ∧ vari'.ny = 1 ∧ (∀ j, vari.get 0 j = vari'.get 0 j) ∧
      yib.nx = 1 ∧ yob.nx = 2 ∧
      (cellave1d vari yib yob true .no).get 0 0 ≠ (cellave1d vari' yib yob true .no).get 0 0 := by
  refine ⟨⟨1, 1, fun i _ => if i = 0 then some 1 else some 7⟩, ⟨1, 1, fun i _ => if i = 0 then some 1 else some 9⟩,
    ⟨1, 2, fun _ j => j⟩, ⟨2, 2, fun _ j => j⟩, rfl, rfl, rfl, rfl, ?_, rfl, rfl, ?_⟩
  · intro j; rfl
  · decide +kernel

/-- Even with memory beyond the array that repeats the data, output row 1 is wrong (0, or
NaN without `conserv`): it is never accumulated. -/
theorem C69_cellave1d_row_lost :
    ∃ (vari : NMat V) (yib yob : NMat ℚ), vari.nx = 1 ∧ yob.nx = 2 ∧
      (∀ i j, vari.get i j = some 1) ∧
      (cellave1d vari yib yob true .no).get 1 0 = some 0 ∧
      (cellave1d vari yib yob true .no).get 0 0 = some 2 := by
  refine ⟨⟨1, 1, fun _ _ => some 1⟩, ⟨1, 2, fun _ j => j⟩, ⟨2, 2, fun _ j => j⟩, rfl, rfl, ?_, ?_, ?_⟩
  · intro i j; rfl
  · decide +kernel
  · decide +kernel

/-- **C69**, the part that holds for `cellave1d`: with no more output rows than data rows,
output row `ix` depends only on data row `ix` and on the coordinate rows `ix mod nxiy`,
`ix mod nxo`, inside their bounds. -/
theorem C69_cellave1d_rows_partial (vari vari' : NMat V) (yib yob yib' yob' : NMat ℚ) (ex : CExtrap) (conserv : Bool)
    (hg : CellGrid vari yib yob) (hg' : CellGrid vari' yib' yob')
    (ix k : Nat) (hix : ix < vari.nx) (hix' : ix < vari'.nx) (hk : k < yob.ny - 1)
    (hny : vari.ny = vari'.ny) (hnyo : yob.ny = yob'.ny)
    (hv : ∀ i, i < vari.ny → vari.get ix i = vari'.get ix i)
    (hb : ∀ i, i ≤ vari.ny → yib.get (ix % yib.nx) i = yib'.get (ix % yib'.nx) i)
    (ho : ∀ i, i < yob.ny → yob.get (ix % yob.nx) i = yob'.get (ix % yob'.nx) i) :
    (cellave1d vari yib yob conserv ex).get ix k = (cellave1d vari' yib' yob' conserv ex).get ix k := by
  rw [cellave1d_get vari yib yob conserv ex hg.nxi hg.asci hg.asco hg.nxib hg.nxo ix k hix hk,
    cellave1d_get vari' yib' yob' conserv ex hg'.nxi hg'.asci hg'.asco hg'.nxib hg'.nxo ix k hix' (by omega),
    ho k (by omega), ho (k+1) (by omega), ← hny]
  have hcl : clampTo vari.ny (yib.get (ix % yib.nx)) = clampTo vari.ny (yib'.get (ix % yib'.nx)) := by
    funext i; unfold clampTo; exact hb _ (by omega)
  rw [hcl]
  unfold caCellSpec
  have hs1 : ∀ w : Nat → ℚ, ∑ i ∈ range vari.ny, okv (vari.get ix i) * w i = ∑ i ∈ range vari.ny, okv (vari'.get ix i) * w i :=
    fun w => Finset.sum_congr rfl (fun i hi => by rw [hv i (mem_range.1 hi)])
  have hs2 : ∀ w : Nat → ℚ, ∑ i ∈ range vari.ny, zv (vari.get ix i) * w i = ∑ i ∈ range vari.ny, zv (vari'.get ix i) * w i :=
    fun w => Finset.sum_congr rfl (fun i hi => by rw [hv i (mem_range.1 hi)])
  rw [hs1, hs2]

end Xoa
