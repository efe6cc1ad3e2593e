import Verif.Regrid
import Verif.FlushProps
import Verif.CellaveProps
import Verif.GridProps

namespace Xoa

/-! ## `cellave1d` is row-wise (any cells, monotonic or not) -/

theorem caInner_congrV (conserv : Bool) (ex : CExtrap) (nyi : Nat) (yib yib' : Nat → ℚ) (va va' : Nat → V) (o0 o1 : ℚ)
    (hb : ∀ i, i ≤ nyi → yib i = yib' i) (hv : ∀ i, i < nyi → va i = va' i) :
    ∀ (l : List Nat), (∀ i ∈ l, i < nyi) → ∀ i0 wo acc,
      caInner conserv ex nyi yib va va o0 o1 l i0 wo acc = caInner conserv ex nyi yib' va' va' o0 o1 l i0 wo acc := by
  intro l
  induction l with
  | nil => intros; rfl
  | cons i rest ih =>
    intro hl i0 wo acc
    have hi : i < nyi := hl i (by simp)
    have h1 : caLo ex yib o0 i = caLo ex yib' o0 i := by unfold caLo; rw [hb i (by omega)]
    have h2 : caHi ex nyi yib o1 i = caHi ex nyi yib' o1 i := by unfold caHi; rw [hb (i + 1) (by omega)]
    have ih' := ih (fun j hj => hl j (by simp [hj]))
    unfold caInner
    rw [h1, h2, hv i hi]
    simp only [ih']

theorem caCells_other (conserv : Bool) (ex : CExtrap) (nyi : Nat) (yib yob : Nat → ℚ) (va : Nat → V) (ix : Nat) :
    ∀ (l : List Nat) (i0 : Nat) (varo : Nat → Nat → V) (i k : Nat), i ≠ ix →
      caCells conserv ex nyi yib yob va va ix ix l i0 varo i k = varo i k := by
  intro l
  induction l with
  | nil => intros; rfl
  | cons iyo rest ih =>
    intro i0 varo i k hne
    unfold caCells
    split
    · exact ih _ _ _ _ hne
    · dsimp only
      rw [ih _ _ _ _ hne]
      split_ifs <;> simp [upd2, hne]

theorem caCells_congrRow (conserv : Bool) (ex : CExtrap) (nyi nyo : Nat) (yib yib' yob yob' : Nat → ℚ) (va va' : Nat → V) (ix ix' : Nat)
    (hb : ∀ i, i ≤ nyi → yib i = yib' i) (ho : ∀ k, k ≤ nyo → yob k = yob' k) (hv : ∀ i, i < nyi → va i = va' i) :
    ∀ (l : List Nat), (∀ k ∈ l, k < nyo) → ∀ (i0 : Nat) (varo varo' : Nat → Nat → V), varo ix = varo' ix' →
      caCells conserv ex nyi yib yob va va ix ix l i0 varo ix = caCells conserv ex nyi yib' yob' va' va' ix' ix' l i0 varo' ix' := by
  intro l
  induction l with
  | nil => intro _ _ _ _ h; exact h
  | cons iyo rest ih =>
    intro hl i0 varo varo' h
    have hk : iyo < nyo := hl iyo (by simp)
    have ih' := ih (fun j hj => hl j (by simp [hj]))
    unfold caCells
    rw [ho iyo (by omega), ho (iyo + 1) (by omega)]
    split
    · exact ih' _ _ _ h
    · dsimp only
      rw [caInner_congrV conserv ex nyi yib yib' va va' _ _ hb hv (List.range' i0 (nyi - i0)) (by
        intro i hi; rw [List.mem_range'] at hi; omega), h]
      apply ih'
      have e1 : ∀ v, upd2 varo ix iyo v ix = upd2 varo' ix' iyo v ix' := by
        intro v; funext k; unfold upd2; simp [h]
      split_ifs
      · exact e1 _
      · funext k; unfold upd2; simp [h]
      · funext k; unfold upd2; simp [h]

theorem cellave1d_row (vari : NMat V) (yib yob : NMat ℚ) (conserv : Bool) (ex : CExtrap) (hnx : yob.nx ≤ vari.nx)
    (hb0 : 0 < yib.nx) (ho0 : 0 < yob.nx) (ix : Nat) (hix : ix < vari.nx) :
    (cellave1d vari yib yob conserv ex).get ix =
      caCells conserv ex vari.ny (yib.get (ix % yib.nx)) (yob.get (ix % yob.nx)) (vari.get ix) (vari.get ix) ix ix
        (List.range (yob.ny - 1)) 0 (fun _ _ => some 0) ix := by
  have key : ∀ n, n ≤ vari.nx → ∀ i,
      ((List.range n).foldl (fun varo ix =>
        caCells conserv ex vari.ny (yib.get (min (yib.nx - 1) (ix % yib.nx)))
          (yob.get (min (yob.nx - 1) (ix % yob.nx))) (vari.get ix)
          (vari.get (min (vari.nx - 1) (ix % vari.nx))) ix (min (vari.nx - 1) (ix % vari.nx))
          (List.range (yob.ny - 1)) 0 varo) (fun _ _ => some 0)) i =
      if i < n then caCells conserv ex vari.ny (yib.get (i % yib.nx)) (yob.get (i % yob.nx)) (vari.get i) (vari.get i) i i
        (List.range (yob.ny - 1)) 0 (fun _ _ => some 0) i else fun _ => some 0 := by
    intro n
    induction n with
    | zero => intro _ i; simp
    | succ n ih =>
      intro hn i
      rw [List.range_succ, List.foldl_append, List.foldl_cons, List.foldl_nil]
      have e1 : min (vari.nx - 1) (n % vari.nx) = n := by rw [Nat.mod_eq_of_lt (by omega)]; omega
      have e2 : min (yib.nx - 1) (n % yib.nx) = n % yib.nx := by have := Nat.mod_lt n hb0; omega
      have e3 : min (yob.nx - 1) (n % yob.nx) = n % yob.nx := by have := Nat.mod_lt n ho0; omega
      rw [e1, e2, e3]
      by_cases hi : i = n
      · subst hi
        rw [if_pos (by omega)]
        apply caCells_congrRow conserv ex vari.ny (yob.ny - 1) _ _ _ _ _ _ _ _ (fun _ _ => rfl) (fun _ _ => rfl) (fun _ _ => rfl)
        · intro k hk; exact List.mem_range.1 hk
        · have := ih (by omega) i
          rw [this, if_neg (by omega)]
      · funext k
        rw [caCells_other _ _ _ _ _ _ _ _ _ _ _ _ hi, ih (by omega)]
        by_cases h : i < n
        · rw [if_pos h, if_pos (by omega)]
        · rw [if_neg h, if_neg (by omega)]
  have := key (max vari.nx yob.nx) (by omega) ix
  rw [if_pos (by omega)] at this
  exact this

/-- the cell-averaging routine as `regrid1d` calls it: on cell edges -/
def cellaveKernel (conserv : Bool) (vari yi yo : Mat) : Mat :=
  let e (m : Mat) : NMat ℚ := ⟨m.nx, m.ny + 1, fun i j => ((edges1d .float 2 (-1) (List.replicate (m.ny + 1) 0) (rowList m i)).getD []).getD j 0⟩
  (cellave1d vari.toN (e yi) (e yo) conserv .no).toM

theorem rowList_congr (m m' : Mat) (i i' : Nat) (h : SameRow m m' (i : Int) (i' : Int)) : rowList m i = rowList m' i' := by
  unfold rowList
  rw [← h.1]
  apply List.map_congr_left
  intro j hj
  rw [h.2 j (by omega) (by have := List.mem_range.1 hj; omega)]

theorem rowWise_cellave (conserv : Bool) : RowWise (cellaveKernel conserv) := by
  refine ⟨fun _ _ _ => rfl, fun _ _ _ => by simp [cellaveKernel, NMat.toM, cellave1d], ?_⟩
  intro vari yi yo vari' yi' yo' ix ix' h1 h2 h3 h4 h5 h6 h7 h8 h9 h10 h11 h12 sv si so j
  obtain ⟨a, rfl⟩ := Int.eq_ofNat_of_zero_le h1
  obtain ⟨b, rfl⟩ := Int.eq_ofNat_of_zero_le h3
  have ha : a < vari.nx := by omega
  have hb : b < vari'.nx := by omega
  have sv' : SameRow vari vari' (a : Int) (b : Int) := by
    rw [Int.emod_eq_of_lt h1 h2, Int.emod_eq_of_lt h3 h4] at sv
    exact sv
  have si' : SameRow yi yi' ((a % yi.nx : Nat) : Int) ((b % yi'.nx : Nat) : Int) := by exact_mod_cast si
  have so' : SameRow yo yo' ((a % yo.nx : Nat) : Int) ((b % yo'.nx : Nat) : Int) := by exact_mod_cast so
  unfold cellaveKernel NMat.toM
  dsimp only
  have e1 : ((a : Int)).toNat = a := by simp
  have e2 : ((b : Int)).toNat = b := by simp
  rw [e1, e2]
  rw [cellave1d_row _ _ _ _ _ (by exact h11) (by exact h5) (by exact h6) a ha,
    cellave1d_row _ _ _ _ _ (by exact h12) (by exact h7) (by exact h8) b hb]
  apply congrFun
  have hny : vari.toN.ny = vari'.toN.ny := sv'.1
  have hyo : yo.ny = yo'.ny := so'.1
  have hyi : yi.ny = yi'.ny := si'.1
  simp only [← hny, ← hyo]
  apply caCells_congrRow conserv .no vari.toN.ny (yo.ny + 1 - 1)
  · intro i _
    rw [rowList_congr yi yi' _ _ si', hyi]
  · intro i _
    rw [rowList_congr yo yo' _ _ so']
  · intro i hi
    show vari.get (a : Int) (i : Int) = vari'.get (b : Int) (i : Int)
    exact sv'.2 i (by omega) (by exact_mod_cast hi)
  · intro k hk
    exact List.mem_range.1 hk
  · rfl

/-! ## C21: dispatch -/

theorem updRow_self (varo : Int → Int → V) (ix : Int) : updRow varo ix (varo ix) = varo := by
  funext i
  unfold updRow
  split
  · rename_i h; rw [h]
  · rfl

theorem extrapRow_other (v : Row) (out : Int → V) : extrapRow .other v out = out := by
  simp [extrapRow]

/-- the extrapolation as `regrid1d` calls it does nothing -/
theorem extrap1d_other (m : Mat) : extrap1d m .other = m := by
  unfold extrap1d
  rw [if_neg (by decide)]
  have : ∀ (l : List Int) (f : Int → Int → V), rowLoop (fun ix => extrapRow .other (m.row ix)) l f = f := by
    intro l
    induction l with
    | nil => intro f; rfl
    | cons i r ih =>
      intro f
      unfold rowLoop at ih ⊢
      rw [List.foldl_cons]
      simp only [extrapRow_other, updRow_self] at ih ⊢
      exact ih f
  rw [this]

/-- an argument that `extrap_modes` knows -/
def ExtrapKnown (a : EArg) : Prop := ∃ n, enumGet extrapModes a = some n

/-- what the documentation calls the method: `None` is linear -/
inductive Named : EArg → (Mat → Mat → Mat → Mat) → Prop
  | default : Named .none linear1d
  | linear : Named (.str "linear".toList) linear1d
  | interp : Named (.str "interp".toList) linear1d
  | linearN : Named (.num 1) linear1d
  | nearest : Named (.str "nearest".toList) nearest1d
  | nearestN : Named (.num 0) nearest1d
  | cubic : Named (.str "cubic".toList) cubic1d
  | cubicN : Named (.num 2) cubic1d
  | hermit : Named (.str "hermit".toList) (fun v yi yo => hermit1d v yi yo 0 0)
  | hermitian : Named (.str "hermitian".toList) (fun v yi yo => hermit1d v yi yo 0 0)
  | hermitN : Named (.num 3) (fun v yi yo => hermit1d v yi yo 0 0)

theorem regrid1d_eq (o : RegridOpts) (K : Mat → Mat → Mat → Mat) (m : Int) (hm : enumGet regridMethods o.method = some m)
    (hK : ∀ v yi yo, callInterp (((enumName regridMethods m).getD []) ++ "1d".toList) {} v yi yo = .ok (K v yi yo))
    (he : ExtrapKnown o.extrap) (da cin cout : LArr V) (dim0 dim1 : String) :
    regrid1d o da cin cout dim0 dim1 = regridWith K da cin cout dim0 dim1 := by
  obtain ⟨e, he⟩ := he
  have h1 : enumGetE regridMethods o.method = .ok m := by unfold enumGetE; rw [hm]
  have h2 : enumGetE extrapModes o.extrap = .ok e := by unfold enumGetE; rw [he]
  unfold regrid1d regridWith
  cases hf : flush da cin cout dim0 dim1 with
  | error x => rfl
  | ok f =>
    simp only [bind, Except.bind]
    rw [h1, h2]
    simp only [memberEqStr, Bool.false_eq_true, if_false, hK, extrapOfMember]
    split
    · rw [extrap1d_other]
    · rfl

/-- C21: for every name, number or `None`, the interpolation applied is the one named (`None` is linear),
whatever the other options. (The options `bias`, `tension`, `conserv` and `extrap` have no effect, see C76:
`C76_hermit_options_violated`, `C76_conserv_violated`, `C76_extrap_violated`.) -/
theorem C21_method (o : RegridOpts) (K : Mat → Mat → Mat → Mat) (hK : Named o.method K) (he : ExtrapKnown o.extrap)
    (da cin cout : LArr V) (dim0 dim1 : String) :
    regrid1d o da cin cout dim0 dim1 = regridWith K da cin cout dim0 dim1 := by
  generalize hmm : o.method = a at hK
  cases hK
  · exact regrid1d_eq o _ 1 (by rw [hmm]; decide) (fun _ _ _ => rfl) he da cin cout dim0 dim1
  · exact regrid1d_eq o _ 1 (by rw [hmm]; decide) (fun _ _ _ => rfl) he da cin cout dim0 dim1
  · exact regrid1d_eq o _ 1 (by rw [hmm]; decide) (fun _ _ _ => rfl) he da cin cout dim0 dim1
  · exact regrid1d_eq o _ 1 (by rw [hmm]; decide) (fun _ _ _ => rfl) he da cin cout dim0 dim1
  · exact regrid1d_eq o _ 0 (by rw [hmm]; decide) (fun _ _ _ => rfl) he da cin cout dim0 dim1
  · exact regrid1d_eq o _ 0 (by rw [hmm]; decide) (fun _ _ _ => rfl) he da cin cout dim0 dim1
  · exact regrid1d_eq o _ 2 (by rw [hmm]; decide) (fun _ _ _ => rfl) he da cin cout dim0 dim1
  · exact regrid1d_eq o _ 2 (by rw [hmm]; decide) (fun _ _ _ => rfl) he da cin cout dim0 dim1
  · exact regrid1d_eq o _ 3 (by rw [hmm]; decide) (fun _ _ _ => rfl) he da cin cout dim0 dim1
  · exact regrid1d_eq o _ 3 (by rw [hmm]; decide) (fun _ _ _ => rfl) he da cin cout dim0 dim1
  · exact regrid1d_eq o _ 3 (by rw [hmm]; decide) (fun _ _ _ => rfl) he da cin cout dim0 dim1

/-- names whose method is the cell averaging -/
inductive NamedCellave : EArg → Prop
  | name : NamedCellave (.str "cellave".toList)
  | num : NamedCellave (.num (-1))

/-- C21: `cellave` on cells of at least two points, without conservation whatever the option -/
theorem C21_cellave (o : RegridOpts) (hm : NamedCellave o.method) (he : ExtrapKnown o.extrap)
    (da cin cout : LArr V) (dim0 dim1 : String) (f : Flushed) (hf : flush da cin cout dim0 dim1 = .ok f)
    (h1 : 2 ≤ f.coordIn.ny) (h2 : 2 ≤ f.coordOut.ny) :
    regrid1d o da cin cout dim0 dim1 = regridWith (cellaveKernel false) da cin cout dim0 dim1 := by
  obtain ⟨e, he⟩ := he
  have hm' : enumGet regridMethods o.method = some (-1) := by
    generalize o.method = a at hm
    cases hm <;> decide
  have g1 : enumGetE regridMethods o.method = .ok (-1) := by unfold enumGetE; rw [hm']
  have g2 : enumGetE extrapModes o.extrap = .ok e := by unfold enumGetE; rw [he]
  have hk : callInterp (((enumName regridMethods (-1)).getD []) ++ "1d".toList) {} f.daIn f.coordIn f.coordOut =
      .ok (cellaveKernel false f.daIn f.coordIn f.coordOut) := by
    have : ((enumName regridMethods (-1)).getD []) ++ "1d".toList = "cellave1d".toList := by decide
    rw [this]
    unfold callInterp edgesMat
    rw [if_neg (by decide), if_neg (by decide), if_neg (by decide), if_neg (by decide), if_pos rfl, if_neg (by omega), if_neg (by omega)]
    rfl
  unfold regrid1d regridWith
  rw [hf]
  simp only [bind, Except.bind]
  rw [g1, g2]
  simp only [memberEqStr, Bool.false_eq_true, if_false, extrapOfMember, hk]
  split
  · rw [extrap1d_other]
  · rfl

/-- C21: an unknown method is refused -/
theorem C21_unknown_method (o : RegridOpts) (hm : enumGet regridMethods o.method = none) (da cin cout : LArr V) (dim0 dim1 : String) :
    ∃ e, regrid1d o da cin cout dim0 dim1 = .error e := by
  unfold regrid1d
  cases hf : flush da cin cout dim0 dim1 with
  | error x => exact ⟨x, rfl⟩
  | ok f =>
    obtain ⟨x, hx⟩ : ∃ x, enumGetE regridMethods o.method = .error x := by unfold enumGetE; rw [hm]; exact ⟨_, rfl⟩
    refine ⟨x, ?_⟩
    simp only [bind, Except.bind, hx]

/-- C21: an unknown extrapolation mode is refused -/
theorem C21_unknown_extrap (o : RegridOpts) (hm : enumGet extrapModes o.extrap = none) (da cin cout : LArr V) (dim0 dim1 : String) :
    ∃ e, regrid1d o da cin cout dim0 dim1 = .error e := by
  unfold regrid1d
  cases hf : flush da cin cout dim0 dim1 with
  | error x => exact ⟨x, rfl⟩
  | ok f =>
    simp only [bind, Except.bind]
    cases enumGetE regridMethods o.method with
    | error x => exact ⟨x, rfl⟩
    | ok m =>
      dsimp only
      cases callInterp (((enumName regridMethods m).getD []) ++ "1d".toList)
          (if memberEqStr m "hermit".toList then { bias := some o.bias, tension := some o.tension } else {}) f.daIn f.coordIn f.coordOut with
      | error x => exact ⟨x, rfl⟩
      | ok v =>
        obtain ⟨x, hx⟩ : ∃ x, enumGetE extrapModes o.extrap = .error x := by unfold enumGetE; rw [hm]; exact ⟨_, rfl⟩
        refine ⟨x, ?_⟩
        simp only [hx]

/-- The options `bias`, `tension` and `conserv` never change the result of `regrid1d`. -/
theorem regrid1d_options (o : RegridOpts) (b t : ℚ) (c : Bool) (da cin cout : LArr V) (dim0 dim1 : String) :
    regrid1d { o with bias := b, tension := t, conserv := c } da cin cout dim0 dim1 = regrid1d o da cin cout dim0 dim1 := by
  unfold regrid1d
  simp only [memberEqStr, Bool.false_eq_true, if_false]

/-! ### what the options should have done, on concrete data -/

def rgDa : LArr V := ⟨["z"], [4], fun idx => ([some 0, some 1, some 4, some 9] : List V).getD (idx.getD 0 0) none⟩
def rgCin : LArr V := ⟨["z"], [4], fun idx => ([some 0, some 1, some 2, some 3] : List V).getD (idx.getD 0 0) none⟩
def rgCout : LArr V := ⟨["z"], [2], fun idx => ([some (5/4), some (7/2)] : List V).getD (idx.getD 0 0) none⟩
def rgCoutC : LArr V := ⟨["z"], [2], fun idx => ([some 1, some (7/2)] : List V).getD (idx.getD 0 0) none⟩
def rgOut (r : Except CErr (LArr V)) : Option (List V) := r.toOption.map (fun a => [a.val [0], a.val [1]])

/-- C76 is false of the options of the hermitian method: they never matter, although they matter to `hermit1d`. -/
theorem C76_hermit_options_violated :
    (∀ (o : RegridOpts) (b t : ℚ) (da cin cout : LArr V) (dim0 dim1 : String),
      regrid1d { o with bias := b, tension := t } da cin cout dim0 dim1 = regrid1d o da cin cout dim0 dim1) ∧
    rgOut (regrid1d { method := .str "hermit".toList, tension := 1 } rgDa rgCin rgCout "z" "z") =
      rgOut (regridWith (fun v yi yo => hermit1d v yi yo 0 0) rgDa rgCin rgCout "z" "z") ∧
    rgOut (regridWith (fun v yi yo => hermit1d v yi yo 0 0) rgDa rgCin rgCout "z" "z") ≠
      rgOut (regridWith (fun v yi yo => hermit1d v yi yo 0 1) rgDa rgCin rgCout "z" "z") := by
  refine ⟨fun o b t da cin cout dim0 dim1 => regrid1d_options o b t o.conserv da cin cout dim0 dim1, ?_, ?_⟩
  · rw [C21_method _ _ .hermit ⟨0, by decide⟩]
  · decide +kernel

/-- C76 is false of `conserv`: it never matters, although it matters to `cellave1d`. -/
theorem C76_conserv_violated :
    (∀ (o : RegridOpts) (c : Bool) (da cin cout : LArr V) (dim0 dim1 : String),
      regrid1d { o with conserv := c } da cin cout dim0 dim1 = regrid1d o da cin cout dim0 dim1) ∧
    rgOut (regridWith (cellaveKernel false) rgDa rgCin rgCoutC "z" "z") ≠
      rgOut (regridWith (cellaveKernel true) rgDa rgCin rgCoutC "z" "z") := by
  refine ⟨fun o c da cin cout dim0 dim1 => regrid1d_options o o.bias o.tension c da cin cout dim0 dim1, ?_⟩
  decide +kernel

/-- C76 is false of `extrap`: the second point is above the data and stays missing although `above` is asked,
whereas `extrap1d` called with its own name of the mode ("top") fills it. -/
theorem C76_extrap_violated :
    (∀ (o : RegridOpts) (e : EArg) (da cin cout : LArr V) (dim0 dim1 : String), ExtrapKnown e → ExtrapKnown o.extrap →
      regrid1d { o with extrap := e } da cin cout dim0 dim1 = regrid1d o da cin cout dim0 dim1) ∧
    rgOut (regrid1d { method := .none, extrap := .str "above".toList } rgDa rgCin rgCout "z" "z") = some [some (7/4), none] ∧
    rgOut (regridWith (fun v yi yo => extrap1d (linear1d v yi yo) .top) rgDa rgCin rgCout "z" "z") = some [some (7/4), some (7/4)] := by
  refine ⟨?_, by decide +kernel, by decide +kernel⟩
  intro o e da cin cout dim0 dim1 he ho
  unfold regrid1d
  obtain ⟨n, hn⟩ := he
  obtain ⟨n', hn'⟩ := ho
  have h1 : enumGetE extrapModes e = .ok n := by unfold enumGetE; rw [hn]
  have h2 : enumGetE extrapModes o.extrap = .ok n' := by unfold enumGetE; rw [hn']
  simp only [memberEqStr, Bool.false_eq_true, if_false, extrapOfMember, extrap1d_other, ite_self, h1, h2, bind, Except.bind]

/-- C19, partial, for `regrid1d` itself and every method but cell averaging: each row of the result is the one that the named routine makes of
the rows of the data and of the coordinates at the same place, in isolation. Missing: see `PairOk`. -/
theorem C19_regrid1d_partial (o : RegridOpts) (K : Mat → Mat → Mat → Mat) (hK : Named o.method K) (he : ExtrapKnown o.extrap)
    (da cin cout : LArr V) (dim0 dim1 : String)
    (h : FlushIn da cin cout dim0 dim1) (hc : Compat da cout dim0 dim1) (hp : PairOk da cin cout dim0 dim1)
    (pos0 : String → Nat) (hpos0 : ∀ d ∈ outDims da cout dim0 dim1, pos0 d < outSize da cout dim1 d) :
    ∃ out, regrid1d o da cin cout dim0 dim1 = .ok out ∧ out.dims = outDims da cout dim0 dim1 ∧
      (∀ d ∈ out.dims, out.size d = outSize da cout dim1 d) ∧
      ∀ pos, (∀ d ∈ out.dims, pos d < out.size d) →
        out.at pos = (K (oneRow (da.line dim0 pos)) (oneRow (cin.line dim0 pos)) (oneRow (cout.line dim1 pos))).get 0 (pos dim1 : Nat) := by
  rw [C21_method o K hK he da cin cout dim0 dim1]
  refine C19_pairing_partial K ?_ da cin cout dim0 dim1 h hc hp pos0 hpos0
  generalize o.method = a at hK
  cases hK
  · exact rowWise_linear1d
  · exact rowWise_linear1d
  · exact rowWise_linear1d
  · exact rowWise_linear1d
  · exact rowWise_nearest1d
  · exact rowWise_nearest1d
  · exact rowWise_cubic1d
  · exact rowWise_cubic1d
  · exact rowWise_hermit1d 0 0
  · exact rowWise_hermit1d 0 0
  · exact rowWise_hermit1d 0 0

/-- C19, partial, for `regrid1d` by cell averaging: each row of the result is the cell average of the row of the data on the cells
around the coordinates at the same place. -/
theorem C19_regrid1d_cellave_partial (o : RegridOpts) (hm : NamedCellave o.method) (he : ExtrapKnown o.extrap)
    (da cin cout : LArr V) (dim0 dim1 : String)
    (h : FlushIn da cin cout dim0 dim1) (hc : Compat da cout dim0 dim1) (hp : PairOk da cin cout dim0 dim1)
    (hi2 : 2 ≤ cin.size dim0) (ho2 : 2 ≤ cout.size dim1)
    (pos0 : String → Nat) (hpos0 : ∀ d ∈ outDims da cout dim0 dim1, pos0 d < outSize da cout dim1 d) :
    ∃ out, regrid1d o da cin cout dim0 dim1 = .ok out ∧ out.dims = outDims da cout dim0 dim1 ∧
      (∀ d ∈ out.dims, out.size d = outSize da cout dim1 d) ∧
      ∀ pos, (∀ d ∈ out.dims, pos d < out.size d) →
        out.at pos = (cellaveKernel false (oneRow (da.line dim0 pos)) (oneRow (cin.line dim0 pos)) (oneRow (cout.line dim1 pos))).get 0 (pos dim1 : Nat) := by
  obtain ⟨f, hf, hwd, hws, hfd, ⟨x, ax, fx⟩, ⟨y, ay, fy⟩, ⟨z, az, fz⟩⟩ := flush_ok da cin cout dim0 dim1 h hc
  obtain ⟨m2, g2, p1, p2, r2⟩ := ay.flat (by omega)
  obtain ⟨m3, g3, q1, q2, r3⟩ := az.flat (by omega)
  rw [fy] at g2; rw [fz] at g3
  cases g2; cases g3
  rw [C21_cellave o hm he da cin cout dim0 dim1 f hf (by omega) (by omega)]
  exact C19_pairing_partial _ (rowWise_cellave false) da cin cout dim0 dim1 h hc hp pos0 hpos0

/-- C69, partial: `cellave1d` treats the rows independently, whatever the cells (increasing or not), when there are at
least as many rows of data as rows of output cells. Missing: otherwise the rows of data are reread beyond the array
(`C69_cellave1d_rows_violated`). -/
theorem C69_cellave1d_any_rows_partial (vari vari' : NMat V) (yib yob yib' yob' : NMat ℚ) (ex : CExtrap) (conserv : Bool)
    (ix ix' : Nat) (hix : ix < vari.nx) (hix' : ix' < vari'.nx) (ho : yob.nx ≤ vari.nx) (ho' : yob'.nx ≤ vari'.nx)
    (h1 : 0 < yib.nx) (h2 : 0 < yob.nx) (h1' : 0 < yib'.nx) (h2' : 0 < yob'.nx)
    (hny : vari.ny = vari'.ny) (hnyo : yob.ny = yob'.ny)
    (hv : ∀ i, i < vari.ny → vari.get ix i = vari'.get ix' i)
    (hb : ∀ i, i ≤ vari.ny → yib.get (ix % yib.nx) i = yib'.get (ix' % yib'.nx) i)
    (hob : ∀ i, i < yob.ny → yob.get (ix % yob.nx) i = yob'.get (ix' % yob'.nx) i) :
    (cellave1d vari yib yob conserv ex).get ix = (cellave1d vari' yib' yob' conserv ex).get ix' := by
  rw [cellave1d_row vari yib yob conserv ex ho h1 h2 ix hix, cellave1d_row vari' yib' yob' conserv ex ho' h1' h2' ix' hix']
  simp only [← hny, ← hnyo]
  rcases Nat.eq_zero_or_pos yob.ny with h | h
  · rw [h]; rfl
  · exact caCells_congrRow conserv ex vari.ny (yob.ny - 1) _ _ _ _ _ _ _ _ hb (fun k hk => hob k (by omega)) hv _
      (fun k hk => List.mem_range.1 hk) 0 _ _ rfl

-- the hypotheses are met: two rows of data and descending cells
example : (cellave1d ⟨2, 2, fun i j => some (i + j)⟩ ⟨1, 3, fun _ j => 3 - j⟩ ⟨1, 2, fun _ j => 2 - 2 * j⟩ false .no).get 0 =
    (cellave1d ⟨1, 2, fun i j => some (i + j)⟩ ⟨1, 3, fun _ j => 3 - j⟩ ⟨1, 2, fun _ j => 2 - 2 * j⟩ false .no).get 0 :=
  C69_cellave1d_any_rows_partial _ _ _ _ _ _ _ _ 0 0 (by decide) (by decide) (by decide) (by decide) (by decide) (by decide) (by decide) (by decide)
    rfl rfl (fun _ _ => rfl) (fun _ _ => rfl) (fun _ _ => rfl)

-- `regrid1d` on three dimensional data
example : rgOut ((regrid1d { method := .str "nearest".toList } exDa exCinX exCoutX "z" "zo").map (fun r => ⟨["a"], [2], fun i => r.at (exPos 1 (i.getD 0 0) 0)⟩)) =
    some [some 0, none] := by decide +kernel
-- and by cell averaging
example : rgOut (regrid1d { method := .str "cellave".toList } rgDa rgCin rgCoutC "z" "z") = some [some (8/5), some 8] := by decide +kernel

end Xoa
