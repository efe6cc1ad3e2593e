import Verif.Interp1dInt
import Verif.RegridTopProps

/-!
# Interpolation of integer data (C183)
-/

namespace Xoa
open V

/-- a float run and an integer run of a scan: each output value of the second is that of the first, converted -/
def StoredOut (g : Int) (out outI : Int → V) : Prop := ∀ j : Int, outI j = storeI g (out j)

theorem StoredOut.wr {g : Int} {out outI : Int → V} (h : StoredOut g out outI) (n : Nat) (i : Int) (v : V) :
    StoredOut g (wr1 n out i v) (wr1 n outI i (storeI g v)) := by
  intro j
  unfold wr1
  split
  · rfl
  · exact h j

theorem nlInner_stored (g : Int) (yi yo : Row) (w : Int → V → V → Option V) (iyi : Int) : ∀ (l : List Int) (m : Int) (out outI : Int → V), StoredOut g out outI →
    (nlInner yi yo (fun a b c => (w a b c).map (storeI g)) iyi l m outI).1 = (nlInner yi yo w iyi l m out).1 ∧
    StoredOut g (nlInner yi yo w iyi l m out).2 (nlInner yi yo (fun a b c => (w a b c).map (storeI g)) iyi l m outI).2 := by
  intro l
  induction l with
  | nil => intro m out outI h; exact ⟨rfl, h⟩
  | cons j l ih =>
    intro m out outI h
    simp only [nlInner]
    split
    · exact ⟨rfl, h⟩
    · split
      · exact ih _ _ _ h
      · cases hw : w iyi (sub (yo.rd j) (yi.rd iyi)) (sub (yi.rd (iyi + 1)) (yo.rd j)) with
        | none => exact ih _ _ _ h
        | some v => exact ih _ _ _ (h.wr _ _ _)

theorem nlOuter_stored (g : Int) (yi yo : Row) (w : Int → V → V → Option V) (mx : Int) : ∀ (l : List Int) (m : Int) (out outI : Int → V), StoredOut g out outI →
    StoredOut g (nlOuter yi yo w mx l m out) (nlOuter yi yo (fun a b c => (w a b c).map (storeI g)) mx l m outI) := by
  intro l
  induction l with
  | nil => intro m out outI h; exact h
  | cons i l ih =>
    intro m out outI h
    simp only [nlOuter]
    split
    · exact ih _ _ _ h
    · split
      · exact h
      · obtain ⟨h1, h2⟩ := nlInner_stored g yi yo w i (pyRange m (mx + 1)) m out outI h
        rw [h1]
        exact ih _ _ _ h2

theorem nlRow_stored (g : Int) (yi yo : Row) (w : Int → V → V → Option V) (out outI : Int → V) (h : StoredOut g out outI) :
    StoredOut g (nlRow yi yo w out) (nlRow yi yo (fun a b c => (w a b c).map (storeI g)) outI) := nlOuter_stored g yi yo w _ _ _ _ _ h

theorem rowLoop_stored (g : Int) (b bI : Int → (Int → V) → (Int → V)) (hb : ∀ ix out outI, StoredOut g out outI → StoredOut g (b ix out) (bI ix outI)) :
    ∀ (l : List Int) (m mI : Int → Int → V), (∀ i, StoredOut g (m i) (mI i)) → ∀ i, StoredOut g (rowLoop b l m i) (rowLoop bI l mI i) := by
  intro l
  induction l with
  | nil => intro m mI h i; exact h i
  | cons a l ih =>
    intro m mI h i
    refine ih _ _ ?_ i
    intro k
    dsimp only [updRow]
    split
    · exact hb _ _ _ (h _)
    · exact h k

theorem linear1dI_get (g : Int) (vari yi yo : Mat) (i j : Int) : (linear1dI g vari yi yo).get i j = storeI g ((linear1d vari yi yo).get i j) :=
  rowLoop_stored g _ _ (fun ix out outI h => nlRow_stored g (yi.row (rowIdx yi.nx ix)) (yo.row (rowIdx yo.nx ix)) (linearW (vari.row (rowIdx vari.nx ix))) out outI h) _ _ _
    (fun _ _ => rfl) i j

theorem nearest1dI_get (g : Int) (vari yi yo : Mat) (i j : Int) : (nearest1dI g vari yi yo).get i j = storeI g ((nearest1d vari yi yo).get i j) :=
  rowLoop_stored g _ _ (fun ix out outI h => nlRow_stored g (yi.row (rowIdx yi.nx ix)) (yo.row (rowIdx yo.nx ix)) (nearestW (vari.row (rowIdx vari.nx ix))) out outI h) _ _ _
    (fun _ _ => rfl) i j

theorem rowWise_linear1dI (g : Int) : RowWise (linear1dI g) :=
  ⟨fun _ _ _ => rfl, fun _ _ _ => rfl, fun v yi yo v' yi' yo' ix ix' a b c d e f g' h i j k l m n o p => by
    rw [linear1dI_get, linear1dI_get, rowWise_linear1d.rows v yi yo v' yi' yo' ix ix' a b c d e f g' h i j k l m n o p]⟩

theorem rowWise_nearest1dI (g : Int) : RowWise (nearest1dI g) :=
  ⟨fun _ _ _ => rfl, fun _ _ _ => rfl, fun v yi yo v' yi' yo' ix ix' a b c d e f g' h i j k l m n o p => by
    rw [nearest1dI_get, nearest1dI_get, rowWise_nearest1d.rows v yi yo v' yi' yo' ix ix' a b c d e f g' h i j k l m n o p]⟩

/-! ### never missing -/

/-- all the values are integers, none is missing -/
def AllInt (out : Int → V) : Prop := ∀ j : Int, ∃ n : Int, out j = some (n : ℚ)

theorem storeI_int (g : Int) (v : V) : ∃ n : Int, storeI g v = some (n : ℚ) := by
  cases v with
  | none => exact ⟨g, rfl⟩
  | some q => exact ⟨_, rfl⟩

theorem AllInt.wr {out : Int → V} (h : AllInt out) (n : Nat) (i : Int) (v : V) (hv : ∃ m : Int, v = some (m : ℚ)) : AllInt (wr1 n out i v) := by
  intro j
  unfold wr1
  split
  · exact hv
  · exact h j

theorem chInner_int (yi yo : Row) (w : Int → V → V → V) (hw : ∀ a b c, ∃ m : Int, w a b c = some (m : ℚ)) (iyi : Int) : ∀ (l : List Int) (m : Int) (out : Int → V), AllInt out →
    AllInt (chInner yi yo w iyi l m out).2 := by
  intro l
  induction l with
  | nil => intro m out h; exact h
  | cons j l ih =>
    intro m out h
    simp only [chInner]
    split
    · exact h
    · split
      · exact ih _ _ (h.wr _ _ _ (hw _ _ _))
      · exact ih _ _ h

theorem chOuter_int (yi yo : Row) (w : Int → V → V → V) (hw : ∀ a b c, ∃ m : Int, w a b c = some (m : ℚ)) (mx : Int) : ∀ (l : List Int) (m : Int) (out : Int → V), AllInt out →
    AllInt (chOuter yi yo w mx l m out) := by
  intro l
  induction l with
  | nil => intro m out h; exact h
  | cons j l ih =>
    intro m out h
    simp only [chOuter]
    split
    · exact ih _ _ h
    · split
      · exact h
      · exact ih _ _ (chInner_int yi yo w hw _ _ _ _ h)

theorem rowLoop_int (b : Int → (Int → V) → (Int → V)) (hb : ∀ ix out, AllInt out → AllInt (b ix out)) :
    ∀ (l : List Int) (m : Int → Int → V), (∀ i, AllInt (m i)) → ∀ i, AllInt (rowLoop b l m i) := by
  intro l
  induction l with
  | nil => intro m h i; exact h i
  | cons a l ih =>
    intro m h i
    refine ih _ ?_ i
    intro k
    dsimp only [updRow]
    split
    · exact hb _ _ (h _)
    · exact h k

/-- **C183 is violated** (missing): for integer data no routine ever gives a missing value, whatever the coordinates are: every value of the result is some integer, at output points out of the
range of the input coordinate or without coordinate too. -/
theorem C183_missing_violated (g : Int) (vari yi yo : Mat) (bias tension : ℚ) (i j : Int) :
    (∃ n : Int, (nearest1dI g vari yi yo).get i j = some (n : ℚ)) ∧ (∃ n : Int, (linear1dI g vari yi yo).get i j = some (n : ℚ)) ∧
    (∃ n : Int, (cubic1dI g vari yi yo).get i j = some (n : ℚ)) ∧ (∃ n : Int, (hermit1dI g vari yi yo bias tension).get i j = some (n : ℚ)) := by
  refine ⟨?_, ?_, ?_, ?_⟩
  · rw [nearest1dI_get]
    exact storeI_int g _
  · rw [linear1dI_get]
    exact storeI_int g _
  · exact rowLoop_int (fun ix => chRow (yi.row (rowIdx yi.nx ix)) (yo.row (rowIdx yo.nx ix)) (cubicWI g (vari.row ix) (vari.row (rowIdx vari.nx ix))))
      (fun ix out h => chOuter_int _ _ _ (fun a b c => storeI_int g _) _ _ _ _ h) _ (fullI g) (fun _ _ => storeI_int g none) i j
  · exact rowLoop_int (fun ix => chRow (yi.row (rowIdx yi.nx ix)) (yo.row (rowIdx yo.nx ix)) (hermitWI g bias tension (vari.row ix) (vari.row (rowIdx vari.nx ix))))
      (fun ix out h => chOuter_int _ _ _ (fun a b c => storeI_int g _) _ _ _ _ h) _ (fullI g) (fun _ _ => storeI_int g none) i j

/-- **C183** (what holds): for integer data, `nearest1d` and `linear1d` give the value that they give for the same data as floats, when it is an integer; otherwise its integer part, and an
unspecified integer (the conversion of NaN) where it is missing. -/
theorem C183_value_partial (g : Int) (vari yi yo : Mat) (i j : Int) :
    (∀ n : Int, (linear1d vari yi yo).get i j = some (n : ℚ) → (linear1dI g vari yi yo).get i j = some (n : ℚ)) ∧
    (∀ q, (linear1d vari yi yo).get i j = some q → 0 ≤ q → (linear1dI g vari yi yo).get i j = some (⌊q⌋ : ℚ)) ∧
    (∀ q, (linear1d vari yi yo).get i j = some q → q < 0 → (linear1dI g vari yi yo).get i j = some (⌈q⌉ : ℚ)) ∧
    ((linear1d vari yi yo).get i j = none → (linear1dI g vari yi yo).get i j = some (g : ℚ)) ∧
    (∀ n : Int, (nearest1d vari yi yo).get i j = some (n : ℚ) → (nearest1dI g vari yi yo).get i j = some (n : ℚ)) ∧
    ((nearest1d vari yi yo).get i j = none → (nearest1dI g vari yi yo).get i j = some (g : ℚ)) := by
  have hn : ∀ n : Int, storeI g (some (n : ℚ)) = some (n : ℚ) := by
    intro n
    simp only [storeI, Int.floor_intCast, Int.ceil_intCast, ite_self]
  rw [linear1dI_get, nearest1dI_get]
  refine ⟨?_, ?_, ?_, ?_, ?_, ?_⟩
  · intro n h; rw [h, hn]
  · intro q h h0
    rw [h]
    simp only [storeI, if_pos h0]
  · intro q h h0
    rw [h]
    simp only [storeI, if_neg (not_le.2 h0)]
  · intro h; rw [h]; rfl
  · intro n h; rw [h, hn]
  · intro h; rw [h]; rfl

/-- the regridding of integer data is that of the same data as floats, followed by the conversion of each value -/
theorem regridI_at (K KI : Mat → Mat → Mat → Mat) (g : Int) (hK : RowWise K) (hKI : RowWise KI) (hget : ∀ v yi yo i j, (KI v yi yo).get i j = storeI g ((K v yi yo).get i j))
    (da cin cout : LArr V) (dim0 dim1 : String) (h : FlushIn da cin cout dim0 dim1) (hc : Compat da cout dim0 dim1) (hp : PairOk da cin cout dim0 dim1)
    (pos0 : String → Nat) (hpos0 : ∀ d ∈ outDims da cout dim0 dim1, pos0 d < outSize da cout dim1 d) :
    ∃ out outI, regridWith K da cin cout dim0 dim1 = .ok out ∧ regridWith KI da cin cout dim0 dim1 = .ok outI ∧ outI.dims = out.dims ∧
      (∀ d ∈ out.dims, outI.size d = out.size d) ∧ ∀ pos, (∀ d ∈ out.dims, pos d < out.size d) → outI.at pos = storeI g (out.at pos) := by
  obtain ⟨out, a1, a2, a3, a4⟩ := C19_pairing_partial K hK da cin cout dim0 dim1 h hc hp pos0 hpos0
  obtain ⟨outI, b1, b2, b3, b4⟩ := C19_pairing_partial KI hKI da cin cout dim0 dim1 h hc hp pos0 hpos0
  have hsz : ∀ d ∈ out.dims, outI.size d = out.size d := by
    intro d hd
    rw [a3 d hd, b3 d (by rw [b2, ← a2]; exact hd)]
  refine ⟨out, outI, a1, b1, by rw [b2, a2], hsz, ?_⟩
  intro pos hpos
  rw [a4 pos hpos, b4 pos, hget]
  intro d hd
  rw [b2, ← a2] at hd
  rw [hsz d hd]
  exact hpos d hd

/-- **C183** (arrays): regridding integer data with the linear or the nearest method gives the same dimensions and sizes as regridding them as floats. Each value is the one given for floats when it is
an integer. -/
theorem C183_regrid_partial (g : Int) (K KI : Mat → Mat → Mat → Mat) (hm : (K = linear1d ∧ KI = linear1dI g) ∨ (K = nearest1d ∧ KI = nearest1dI g))
    (da cin cout : LArr V) (dim0 dim1 : String) (h : FlushIn da cin cout dim0 dim1) (hc : Compat da cout dim0 dim1) (hp : PairOk da cin cout dim0 dim1)
    (pos0 : String → Nat) (hpos0 : ∀ d ∈ outDims da cout dim0 dim1, pos0 d < outSize da cout dim1 d) :
    ∃ out outI, regridWith K da cin cout dim0 dim1 = .ok out ∧ regridWith KI da cin cout dim0 dim1 = .ok outI ∧ outI.dims = out.dims ∧
      (∀ d ∈ out.dims, outI.size d = out.size d) ∧
      ∀ pos, (∀ d ∈ out.dims, pos d < out.size d) → ∀ n : Int, out.at pos = some (n : ℚ) → outI.at pos = some (n : ℚ) := by
  have hn : ∀ n : Int, storeI g (some (n : ℚ)) = some (n : ℚ) := by
    intro n
    simp only [storeI, Int.floor_intCast, Int.ceil_intCast, ite_self]
  rcases hm with ⟨rfl, rfl⟩ | ⟨rfl, rfl⟩
  · obtain ⟨out, outI, h1, h2, h3, h4, h5⟩ := regridI_at linear1d (linear1dI g) g rowWise_linear1d (rowWise_linear1dI g) (linear1dI_get g) da cin cout dim0 dim1 h hc hp pos0 hpos0
    exact ⟨out, outI, h1, h2, h3, h4, fun pos hpos n e => by rw [h5 pos hpos, e, hn]⟩
  · obtain ⟨out, outI, h1, h2, h3, h4, h5⟩ := regridI_at nearest1d (nearest1dI g) g rowWise_nearest1d (rowWise_nearest1dI g) (nearest1dI_get g) da cin cout dim0 dim1 h hc hp pos0 hpos0
    exact ⟨out, outI, h1, h2, h3, h4, fun pos hpos n e => by rw [h5 pos hpos, e, hn]⟩

/-- **C183 is violated** (values): with the linear method, wherever the value for floats is not an integer (for instance in the middle of two data that differ by an odd number) the value for
integers differs from it, by less than one, and where the value for floats is missing it is an unspecified integer. -/
theorem C183_regrid_violated (g : Int) (da cin cout : LArr V) (dim0 dim1 : String) (h : FlushIn da cin cout dim0 dim1) (hc : Compat da cout dim0 dim1) (hp : PairOk da cin cout dim0 dim1)
    (pos0 : String → Nat) (hpos0 : ∀ d ∈ outDims da cout dim0 dim1, pos0 d < outSize da cout dim1 d) :
    ∃ out outI, regridWith linear1d da cin cout dim0 dim1 = .ok out ∧ regridWith (linear1dI g) da cin cout dim0 dim1 = .ok outI ∧
      ∀ pos, (∀ d ∈ out.dims, pos d < out.size d) →
        (∀ q, out.at pos = some q → (∀ n : Int, q ≠ n) → ∃ n : Int, outI.at pos = some (n : ℚ) ∧ (n : ℚ) ≠ q ∧ |q - n| < 1) ∧
        (out.at pos = none → outI.at pos = some (g : ℚ)) := by
  obtain ⟨out, outI, h1, h2, -, -, h5⟩ := regridI_at linear1d (linear1dI g) g rowWise_linear1d (rowWise_linear1dI g) (linear1dI_get g) da cin cout dim0 dim1 h hc hp pos0 hpos0
  refine ⟨out, outI, h1, h2, ?_⟩
  intro pos hpos
  refine ⟨?_, fun e => by rw [h5 pos hpos, e]; rfl⟩
  intro q e hq
  rw [h5 pos hpos, e]
  by_cases h0 : 0 ≤ q
  · refine ⟨⌊q⌋, by simp only [storeI, if_pos h0], fun x => hq _ x.symm, ?_⟩
    have h1 := Int.floor_le q
    have h2 := Int.lt_floor_add_one q
    rw [abs_lt]
    constructor <;> linarith
  · refine ⟨⌈q⌉, by simp only [storeI, if_neg h0], fun x => hq _ x.symm, ?_⟩
    have h1 := Int.le_ceil q
    have h2 := Int.ceil_lt_add_one q
    rw [abs_lt]
    constructor <;> linarith

/-- a case: three integers on three levels, put at 1/2 (a half), 1 and 5 (out of the range) -/
example : let v : Mat := ⟨1, 3, fun _ j => [some 0, some 3, some 4].getD j.toNat none⟩
    let yi : Mat := ⟨1, 3, fun _ j => [some 0, some 1, some 2].getD j.toNat none⟩
    let yo : Mat := ⟨1, 3, fun _ j => [some (1 / 2), some 1, some 5].getD j.toNat none⟩
    (linear1d v yi yo).get 0 0 = some (3 / 2) ∧ (linear1dI (-9) v yi yo).get 0 0 = some 1 ∧ (linear1dI (-9) v yi yo).get 0 1 = some 3 ∧
    (linear1d v yi yo).get 0 2 = none ∧ (linear1dI (-9) v yi yo).get 0 2 = some (-9) := by decide +kernel

end Xoa
