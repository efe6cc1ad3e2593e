import Verif.RegridFLemmas
import Verif.RegridEndProps
import Verif.RegridUnitsProps
import Verif.Interp1dFCubicProps
import Verif.CellaveFProps
import Verif.GridFProps

/-!
# C212: `regrid1d` in floating-point arithmetic, from one end to the other
-/

namespace Xoa

/-! ## The call -/

theorem regrid1dF_eq (fl : ℚ → ℚ) (o : RegridOpts) (K : Mat → Mat → Mat → Mat) (m : Int) (hm : enumGet regridMethods o.method = some m)
    (hK : ∀ v yi yo, callInterpF fl (((enumName regridMethods m).getD []) ++ "1d".toList) {} v yi yo = .ok (K v yi yo))
    (he : ExtrapKnown o.extrap) (da cin cout : LArr V) (dim0 dim1 : String) :
    regrid1dF fl o da cin cout dim0 dim1 = regridWith K da cin cout dim0 dim1 := by
  obtain ⟨e, he⟩ := he
  have h1 : enumGetE regridMethods o.method = .ok m := by unfold enumGetE; rw [hm]
  have h2 : enumGetE extrapModes o.extrap = .ok e := by unfold enumGetE; rw [he]
  unfold regrid1dF regridWith
  cases hf : flush da cin cout dim0 dim1 with
  | error x => rfl
  | ok f =>
    simp only [bind, Except.bind]
    rw [h1, h2]
    simp only [memberEqStr, Bool.false_eq_true, if_false, hK, extrapOfMember]
    split
    · rw [extrap1d_other]
    · rfl

/-- the names and numbers of the methods that compute, with the constant of their error -/
inductive Computes : EArg → ℚ → Prop
  | default : Computes .none 6
  | linear : Computes (.str "linear".toList) 6
  | interp : Computes (.str "interp".toList) 6
  | linearN : Computes (.num 1) 6
  | cubic : Computes (.str "cubic".toList) 850
  | cubicN : Computes (.num 2) 850
  | hermit : Computes (.str "hermit".toList) 1334
  | hermitian : Computes (.str "hermitian".toList) 1334
  | hermitN : Computes (.num 3) 1334

/-- both values are missing, or they differ by at most `e` -/
def Within2 (e : ℚ) (x' x : V) : Prop := (x' = none ∧ x = none) ∨ ∃ r r' : ℚ, x' = some r' ∧ x = some r ∧ |r' - r| ≤ e

/-- two routines on the same rows, in any accepted layout -/
theorem regridWith_two (K' K : Mat → Mat → Mat → Mat) (s' : ∀ v yi yo, (K' v yi yo).nx = max v.nx yo.nx ∧ (K' v yi yo).ny = yo.ny)
    (s : ∀ v yi yo, (K v yi yo).nx = max v.nx yo.nx ∧ (K v yi yo).ny = yo.ny)
    (da cin cout : LArr V) (dim0 dim1 : String) (h : FlushIn da cin cout dim0 dim1) (hc : Compat da cout dim0 dim1)
    (hne : ∀ d ∈ outDims da cout dim0 dim1, 0 < outSize da cout dim1 d) (P : (String → Nat) → V → V → Prop)
    (hP : ∀ f : Flushed, flush da cin cout dim0 dim1 = .ok f → f.daIn.ny = da.size dim0 → f.coordIn.ny = cin.size dim0 → f.coordOut.ny = cout.size dim1 →
      0 < f.coordIn.nx → 0 < f.coordOut.nx → f.coordOut.nx ≤ f.daIn.nx →
      (∀ r : Nat, r < f.daIn.nx → ∃ pos, InsideBut da dim0 pos ∧ ∀ j : Nat, j < da.size dim0 → f.daIn.get (r : Nat) (j : Nat) = da.at (setPos pos dim0 j)) →
      (∀ r : Nat, r < f.coordIn.nx → ∃ pos, InsideBut cin dim0 pos ∧ ∀ j : Nat, j < cin.size dim0 → f.coordIn.get (r : Nat) (j : Nat) = cin.at (setPos pos dim0 j)) →
      (∀ r : Nat, r < f.coordOut.nx → ∃ pos, InsideBut cout dim1 pos ∧ ∀ j : Nat, j < cout.size dim1 → f.coordOut.get (r : Nat) (j : Nat) = cout.at (setPos pos dim1 j)) →
      ∀ (pos : String → Nat) (r : Nat), r < f.daIn.nx → pos dim1 < cout.size dim1 →
        (∀ j : Nat, j < da.size dim0 → f.daIn.get (r : Nat) (j : Nat) = da.at (setPos pos dim0 j)) →
        P pos ((K' f.daIn f.coordIn f.coordOut).get (r : Nat) (pos dim1 : Nat)) ((K f.daIn f.coordIn f.coordOut).get (r : Nat) (pos dim1 : Nat))) :
    ∃ out' out, regridWith K' da cin cout dim0 dim1 = .ok out' ∧ regridWith K da cin cout dim0 dim1 = .ok out ∧
      out'.dims = out.dims ∧ out.dims = outDims da cout dim0 dim1 ∧
      (∀ d ∈ out.dims, out'.size d = out.size d ∧ out.size d = outSize da cout dim1 d) ∧
      ∀ pos, (∀ d ∈ out.dims, pos d < out.size d) → P pos (out'.at pos) (out.at pos) := by
  obtain ⟨f, hf, a1, a2, a3, a4, a5, a6, a7, a8, a9, hg⟩ := flush_rows da cin cout dim0 dim1 h hc hne
  obtain ⟨out', e', d', z', p'⟩ := hg (K' f.daIn f.coordIn f.coordOut) (s' _ _ _).1 (s' _ _ _).2
  obtain ⟨out, e, d, z, p⟩ := hg (K f.daIn f.coordIn f.coordOut) (s _ _ _).1 (s _ _ _).2
  have w' : regridWith K' da cin cout dim0 dim1 = .ok out' := by unfold regridWith; rw [hf]; exact e'
  have w : regridWith K da cin cout dim0 dim1 = .ok out := by unfold regridWith; rw [hf]; exact e
  have hdd : out'.dims = out.dims := d'.trans d.symm
  have hzz : ∀ x ∈ out.dims, out'.size x = out.size x := fun x hx => by rw [z x hx, z' x (hdd ▸ hx)]
  refine ⟨out', out, w', w, hdd, d, fun x hx => ⟨hzz x hx, z x hx⟩, fun pos hp => ?_⟩
  obtain ⟨b1, b2, b3⟩ := p pos hp
  obtain ⟨c1, c2, c3⟩ := p' pos (fun x hx => by rw [hdd] at hx; rw [hzz x hx]; exact hp x hx)
  rw [b2, c2]
  refine hP f hf a1 a2 a3 a4 a5 a6 a7 a8 a9 pos _ b1 ?_ b3
  have hd1 : dim1 ∈ out.dims := by
    rw [d]; unfold outDims; exact List.mem_append_right _ (List.mem_map.mpr ⟨dim0, h.d0, by simp⟩)
  have := hp dim1 hd1
  rw [z dim1 hd1] at this
  unfold outSize at this
  simpa using this

/-- **C212** (linear, cubic and Hermite methods): in floating-point arithmetic with a relative error of `u` by operation, with data and coordinates of any number of dimensions,
regridding succeeds as in exact arithmetic, with the same dimensions, the same sizes and the same missing points, and its values differ from the exact ones by at most
`k u M`, where `M` bounds the data along the row that is interpolated. -/
theorem C212_accurate {fl : ℚ → ℚ} {u : ℚ} (R : Rounds fl u) (hu : u ≤ 1 / 1048576) (o : RegridOpts) (k : ℚ) (hm : Computes o.method k) (he : ExtrapKnown o.extrap)
    (da cin cout : LArr V) (dim0 dim1 : String) (h : FlushIn da cin cout dim0 dim1) (hc : Compat da cout dim0 dim1)
    (hne : ∀ d ∈ outDims da cout dim0 dim1, 0 < outSize da cout dim1 d) :
    ∃ out' out, regrid1dF fl o da cin cout dim0 dim1 = .ok out' ∧ regrid1d o da cin cout dim0 dim1 = .ok out ∧
      out'.dims = out.dims ∧ (∀ d ∈ out.dims, out'.size d = out.size d) ∧
      ∀ pos : String → Nat, (∀ d ∈ out.dims, pos d < out.size d) → ∀ M : ℚ, 0 ≤ M →
        (∀ j : Nat, j < da.size dim0 → ∀ q : ℚ, da.at (moved pos dim0 j) = some q → |q| ≤ M) →
        Within2 (k * u * M) (out'.at pos) (out.at pos) := by
  have key : ∀ (K' K : Mat → Mat → Mat → Mat), regrid1dF fl o da cin cout dim0 dim1 = regridWith K' da cin cout dim0 dim1 →
      regrid1d o da cin cout dim0 dim1 = regridWith K da cin cout dim0 dim1 →
      (∀ v yi yo, (K' v yi yo).nx = max v.nx yo.nx ∧ (K' v yi yo).ny = yo.ny) → (∀ v yi yo, (K v yi yo).nx = max v.nx yo.nx ∧ (K v yi yo).ny = yo.ny) →
      (∀ (v yi yo : Mat) (ix j : Int), 0 ≤ ix → ix < v.nx → 0 < yi.nx → 0 < yo.nx → ∀ M : ℚ, 0 ≤ M →
        (∀ m : Int, 0 ≤ m → m < yi.ny → ∀ q, v.get ix m = some q → |q| ≤ M) → Within2 (k * u * M) ((K' v yi yo).get ix j) ((K v yi yo).get ix j)) →
      ∃ out' out, regrid1dF fl o da cin cout dim0 dim1 = .ok out' ∧ regrid1d o da cin cout dim0 dim1 = .ok out ∧
        out'.dims = out.dims ∧ (∀ d ∈ out.dims, out'.size d = out.size d) ∧
        ∀ pos : String → Nat, (∀ d ∈ out.dims, pos d < out.size d) → ∀ M : ℚ, 0 ≤ M →
          (∀ j : Nat, j < da.size dim0 → ∀ q : ℚ, da.at (moved pos dim0 j) = some q → |q| ≤ M) →
          Within2 (k * u * M) (out'.at pos) (out.at pos) := by
    intro K' K e' e s' s hK
    rw [e', e]
    obtain ⟨out', out, w', w, d1, -, d2, d3⟩ := regridWith_two K' K s' s da cin cout dim0 dim1 h hc hne
      (fun pos x' x => ∀ M : ℚ, 0 ≤ M → (∀ j : Nat, j < da.size dim0 → ∀ q : ℚ, da.at (moved pos dim0 j) = some q → |q| ≤ M) → Within2 (k * u * M) x' x) (by
        intro f _ b1 b2 b3 b4 b5 b6 _ _ _ pos r hr _ hrow M hM hb
        refine hK _ _ _ _ _ (by omega) (by omega) b4 b5 M hM ?_
        intro m hm0 hm1 q hq
        obtain ⟨j, rfl⟩ := Int.eq_ofNat_of_zero_le hm0
        have hj : j < da.size dim0 := by rw [b2, h.csz _ h.c0] at hm1; omega
        rw [hrow j hj] at hq
        exact hb j hj q hq)
    exact ⟨out', out, w', w, d1, fun d hd => (d2 d hd).1, d3⟩
  have hlin : ∀ (v yi yo : Mat) (ix j : Int), 0 ≤ ix → ix < v.nx → 0 < yi.nx → 0 < yo.nx → ∀ M : ℚ, 0 ≤ M →
      (∀ m : Int, 0 ≤ m → m < yi.ny → ∀ q, v.get ix m = some q → |q| ≤ M) → Within2 (6 * u * M) ((linear1dF fl v yi yo).get ix j) ((linear1d v yi yo).get ix j) := by
    intro v yi yo ix j hx0 hx hi ho M hM hb
    rcases C204_linear R (by linarith) v yi yo ix j hx0 (by omega) (by omega) hi ho with g | ⟨i, c, x, y, r, r', _, ⟨b0, b1, _⟩, hx1, hy1, g1, g2, g3⟩
    · exact Or.inl g
    · refine Or.inr ⟨r, r', g1, g2, g3.trans ?_⟩
      rw [Int.emod_eq_of_lt hx0 hx] at hx1 hy1
      have b1 : i + 1 < (yi.ny : Int) := b1
      exact mul_le_mul_of_nonneg_left (max_le (hb i b0 (by omega) x hx1) (hb (i + 1) (by omega) b1 y hy1)) (by linarith [R.nonneg])
  have hcub : ∀ (v yi yo : Mat) (ix j : Int), 0 ≤ ix → ix < v.nx → 0 < yi.nx → 0 < yo.nx → ∀ M : ℚ, 0 ≤ M →
      (∀ m : Int, 0 ≤ m → m < yi.ny → ∀ q, v.get ix m = some q → |q| ≤ M) → Within2 (850 * u * M) ((cubic1dF fl v yi yo).get ix j) ((cubic1d v yi yo).get ix j) :=
    fun v yi yo ix j hx0 hx hi ho M hM hb => C204_cubic R hu v yi yo ix j hx0 hx hi ho M hM hb
  have hher : ∀ (v yi yo : Mat) (ix j : Int), 0 ≤ ix → ix < v.nx → 0 < yi.nx → 0 < yo.nx → ∀ M : ℚ, 0 ≤ M →
      (∀ m : Int, 0 ≤ m → m < yi.ny → ∀ q, v.get ix m = some q → |q| ≤ M) → Within2 (1334 * u * M) ((hermit1dF fl v yi yo 0 0).get ix j) ((hermit1d v yi yo 0 0).get ix j) := by
    intro v yi yo ix j hx0 hx hi ho M hM hb
    have := C204_hermit R hu v yi yo 0 0 ix j hx0 hx hi ho M hM hb
    simpa [Within2] using this
  generalize hmm : o.method = a at hm
  cases hm
  · exact key _ _ (regrid1dF_eq fl o _ 1 (by rw [hmm]; decide) (fun _ _ _ => rfl) he ..) (regrid1d_eq o _ 1 (by rw [hmm]; decide) (fun _ _ _ => rfl) he ..) (fun _ _ _ => ⟨rfl, rfl⟩) (fun _ _ _ => ⟨rfl, rfl⟩) hlin
  · exact key _ _ (regrid1dF_eq fl o _ 1 (by rw [hmm]; decide) (fun _ _ _ => rfl) he ..) (regrid1d_eq o _ 1 (by rw [hmm]; decide) (fun _ _ _ => rfl) he ..) (fun _ _ _ => ⟨rfl, rfl⟩) (fun _ _ _ => ⟨rfl, rfl⟩) hlin
  · exact key _ _ (regrid1dF_eq fl o _ 1 (by rw [hmm]; decide) (fun _ _ _ => rfl) he ..) (regrid1d_eq o _ 1 (by rw [hmm]; decide) (fun _ _ _ => rfl) he ..) (fun _ _ _ => ⟨rfl, rfl⟩) (fun _ _ _ => ⟨rfl, rfl⟩) hlin
  · exact key _ _ (regrid1dF_eq fl o _ 1 (by rw [hmm]; decide) (fun _ _ _ => rfl) he ..) (regrid1d_eq o _ 1 (by rw [hmm]; decide) (fun _ _ _ => rfl) he ..) (fun _ _ _ => ⟨rfl, rfl⟩) (fun _ _ _ => ⟨rfl, rfl⟩) hlin
  · exact key _ _ (regrid1dF_eq fl o _ 2 (by rw [hmm]; decide) (fun _ _ _ => rfl) he ..) (regrid1d_eq o _ 2 (by rw [hmm]; decide) (fun _ _ _ => rfl) he ..) (fun _ _ _ => ⟨rfl, rfl⟩) (fun _ _ _ => ⟨rfl, rfl⟩) hcub
  · exact key _ _ (regrid1dF_eq fl o _ 2 (by rw [hmm]; decide) (fun _ _ _ => rfl) he ..) (regrid1d_eq o _ 2 (by rw [hmm]; decide) (fun _ _ _ => rfl) he ..) (fun _ _ _ => ⟨rfl, rfl⟩) (fun _ _ _ => ⟨rfl, rfl⟩) hcub
  · exact key _ _ (regrid1dF_eq fl o _ 3 (by rw [hmm]; decide) (fun _ _ _ => rfl) he ..) (regrid1d_eq o _ 3 (by rw [hmm]; decide) (fun _ _ _ => rfl) he ..) (fun _ _ _ => ⟨rfl, rfl⟩) (fun _ _ _ => ⟨rfl, rfl⟩) hher
  · exact key _ _ (regrid1dF_eq fl o _ 3 (by rw [hmm]; decide) (fun _ _ _ => rfl) he ..) (regrid1d_eq o _ 3 (by rw [hmm]; decide) (fun _ _ _ => rfl) he ..) (fun _ _ _ => ⟨rfl, rfl⟩) (fun _ _ _ => ⟨rfl, rfl⟩) hher
  · exact key _ _ (regrid1dF_eq fl o _ 3 (by rw [hmm]; decide) (fun _ _ _ => rfl) he ..) (regrid1d_eq o _ 3 (by rw [hmm]; decide) (fun _ _ _ => rfl) he ..) (fun _ _ _ => ⟨rfl, rfl⟩) (fun _ _ _ => ⟨rfl, rfl⟩) hher

/-- **C212** (nearest method): the value is that of exact arithmetic, or the point of the output coordinate is in the middle of a cell of the input coordinate up to the rounding
errors, and the two values are the data at the ends of this cell. -/
theorem C212_nearest {fl : ℚ → ℚ} {u : ℚ} (R : Rounds fl u) (o : RegridOpts) (hm : o.method = .str "nearest".toList ∨ o.method = .num 0) (he : ExtrapKnown o.extrap)
    (da cin cout : LArr V) (dim0 dim1 : String) (h : FlushIn da cin cout dim0 dim1) (hc : Compat da cout dim0 dim1)
    (hne : ∀ d ∈ outDims da cout dim0 dim1, 0 < outSize da cout dim1 d) :
    ∃ out' out, regrid1dF fl o da cin cout dim0 dim1 = .ok out' ∧ regrid1d o da cin cout dim0 dim1 = .ok out ∧
      out'.dims = out.dims ∧ (∀ d ∈ out.dims, out'.size d = out.size d) ∧
      ∀ pos : String → Nat, (∀ d ∈ out.dims, pos d < out.size d) →
        out'.at pos = out.at pos ∨
        ∃ (k : Nat) (pi po : String → Nat) (a b c : ℚ), k + 1 < da.size dim0 ∧ InsideBut cin dim0 pi ∧ InsideBut cout dim1 po ∧
          cin.at (moved pi dim0 k) = some a ∧ cin.at (moved pi dim0 (k + 1)) = some b ∧ cout.at (moved po dim1 (pos dim1)) = some c ∧
          a ≤ c ∧ c ≤ b ∧ (c - a) * (1 - u) ≤ (b - c) * (1 + u) ∧ (b - c) * (1 - u) ≤ (c - a) * (1 + u) ∧
          ((out'.at pos = da.at (moved pos dim0 k) ∧ out.at pos = da.at (moved pos dim0 (k + 1))) ∨
           (out'.at pos = da.at (moved pos dim0 (k + 1)) ∧ out.at pos = da.at (moved pos dim0 k))) := by
  have hm' : enumGet regridMethods o.method = some 0 := by rcases hm with hm | hm <;> rw [hm] <;> decide
  rw [regrid1dF_eq fl o (nearest1dF fl) 0 hm' (fun _ _ _ => rfl) he, regrid1d_eq o nearest1d 0 hm' (fun _ _ _ => rfl) he]
  obtain ⟨out', out, w', w, d1, -, d2, d3⟩ := regridWith_two (nearest1dF fl) nearest1d (fun _ _ _ => ⟨rfl, rfl⟩) (fun _ _ _ => ⟨rfl, rfl⟩) da cin cout dim0 dim1 h hc hne
    (fun pos x' x => x' = x ∨ ∃ (k : Nat) (pi po : String → Nat) (a b c : ℚ), k + 1 < da.size dim0 ∧ InsideBut cin dim0 pi ∧ InsideBut cout dim1 po ∧
          cin.at (moved pi dim0 k) = some a ∧ cin.at (moved pi dim0 (k + 1)) = some b ∧ cout.at (moved po dim1 (pos dim1)) = some c ∧
          a ≤ c ∧ c ≤ b ∧ (c - a) * (1 - u) ≤ (b - c) * (1 + u) ∧ (b - c) * (1 - u) ≤ (c - a) * (1 + u) ∧
          ((x' = da.at (moved pos dim0 k) ∧ x = da.at (moved pos dim0 (k + 1))) ∨ (x' = da.at (moved pos dim0 (k + 1)) ∧ x = da.at (moved pos dim0 k)))) (by
      intro f _ b1 b2 b3 b4 b5 b6 _ ri ro pos r hr hj hrow
      have hrI : (r : Int) < f.daIn.nx := by omega
      rcases C204_nearest R f.daIn f.coordIn f.coordOut r (pos dim1 : Nat) (by omega) (by omega) (by omega) b4 b5 with g | ⟨i, a, b, c, e1, ⟨i0, i1, a', b', e2', e3', l1, l2⟩, e2, e3, t1, t2, g⟩
      · exact Or.inl g
      · right
        have i1 : i + 1 < (f.coordIn.ny : Int) := i1
        obtain ⟨k, rfl⟩ := Int.eq_ofNat_of_zero_le i0
        have hk : k + 1 < cin.size dim0 := by omega
        have hk' : k + 1 < da.size dim0 := by rw [← h.csz _ h.c0]; exact hk
        have hri : (r : Int) % f.coordIn.nx = ((r % f.coordIn.nx : Nat) : Int) := by norm_cast
        have hro : (r : Int) % f.coordOut.nx = ((r % f.coordOut.nx : Nat) : Int) := by norm_cast
        obtain ⟨pi, hpi, vi⟩ := ri (r % f.coordIn.nx) (Nat.mod_lt _ b4)
        obtain ⟨po, hpo, vo⟩ := ro (r % f.coordOut.nx) (Nat.mod_lt _ b5)
        have hk1 : ((k : Int) + 1) = ((k + 1 : Nat) : Int) := by norm_cast
        rw [hri] at e2 e3 e2' e3'
        rw [hro] at e1
        have e2'' : f.coordIn.get ((r % f.coordIn.nx : Nat) : Int) (k : Int) = some a' := e2'
        have e3'' : f.coordIn.get ((r % f.coordIn.nx : Nat) : Int) ((k : Int) + 1) = some b' := e3'
        rw [e2] at e2''; rw [e3] at e3''
        have ea := Option.some.inj e2''; have eb := Option.some.inj e3''
        rw [Int.emod_eq_of_lt (by omega) hrI] at g
        rw [hk1] at e3 g
        rw [vi k (by omega)] at e2
        rw [vi (k + 1) hk] at e3
        rw [vo _ hj] at e1
        rw [hrow k (by omega), hrow (k + 1) hk'] at g
        exact ⟨k, pi, po, a, b, c, hk', hpi, hpo, e2, e3, e1, by rw [ea]; exact l1, by rw [eb]; exact l2, t1, t2, g⟩)
  exact ⟨out', out, w', w, d1, fun d hd => (d2 d hd).1, d3⟩

/-! ## Cell averaging -/

/-- the cells around the points of the rows, as `get_edges_1d` computes them -/
def edgesF (fl : ℚ → ℚ) (m : Mat) : NMat ℚ :=
  ⟨m.nx, m.ny + 1, fun i j => ((edges1dF fl 2 (-1) (List.replicate (m.ny + 1) 0) (rowList m i)).getD []).getD j 0⟩

/-- cell averaging with rounding, on the computed cells -/
def cellaveKF (fl : ℚ → ℚ) (vari yi yo : Mat) : Mat := (cellave1dF fl vari.toN (edgesF fl yi) (edgesF fl yo) false .no).toM

/-- the exact cell averaging on the computed cells -/
def cellaveOn (fl : ℚ → ℚ) (vari yi yo : Mat) : Mat := (cellave1d vari.toN (edgesF fl yi) (edgesF fl yo) false .no).toM

/-- along the dimension `d` the coordinate does not decrease, has no missing value, and its values are numbers of the floating-point type -/
structure StoredCoord (fl : ℚ → ℚ) (c : LArr V) (d : String) : Prop where
  full : ∀ pos : String → Nat, InsideBut c d pos → ∀ k : Nat, k < c.size d → ∃ q : ℚ, c.at (moved pos d k) = some q ∧ fl q = q
  asc : ∀ pos : String → Nat, InsideBut c d pos → ∀ (k : Nat) (a b : ℚ), k + 1 < c.size d → c.at (moved pos d k) = some a → c.at (moved pos d (k + 1)) = some b → a ≤ b

theorem edgesF_asc {fl : ℚ → ℚ} (O : Ordered fl) (c : LArr V) (d : String) (hc : StoredCoord fl c d) (h2 : 2 ≤ c.size d) (m : Mat) (hny : m.ny = c.size d)
    (rows : ∀ r : Nat, r < m.nx → ∃ pos, InsideBut c d pos ∧ ∀ j : Nat, j < c.size d → m.get (r : Nat) (j : Nat) = c.at (setPos pos d j)) (r i : Nat)
    (hr : r < m.nx) (hi : i < m.ny) : (edgesF fl m).get r i ≤ (edgesF fl m).get r (i + 1) := by
  obtain ⟨pos, hp, hv⟩ := rows r hr
  have hlen : (rowList m r).length = m.ny := by simp [rowList]
  have hctr : ∀ j : Nat, j < m.ny → ∃ q : ℚ, c.at (moved pos d j) = some q ∧ fl q = q ∧ ctr (rowList m r) j = q := by
    intro j hj
    obtain ⟨q, e1, e2⟩ := hc.full pos hp j (by omega)
    refine ⟨q, e1, e2, ?_⟩
    have e3 : m.get (r : Nat) (j : Nat) = some q := (hv j (by omega)).trans e1
    unfold ctr rowList
    rw [List.getD_eq_getElem?_getD, List.getElem?_map, List.getElem?_range hj]
    simp [e3]
  obtain ⟨out, ho, hol, -⟩ := edges1dF_spec fl 2 (-1) (List.replicate (m.ny + 1) 0) (rowList m r) (by decide) (by omega) (by simp [hlen])
  have := (C208_enclosed fl O 2 (-1) (List.replicate (m.ny + 1) 0) (rowList m r) out (by decide) (by omega) (by simp [hlen])
    (by
      intro j hj
      obtain ⟨q, -, e2, e3⟩ := hctr j (by omega)
      rw [e3, e2])
    (by
      intro j hj
      obtain ⟨q, e1, -, e3⟩ := hctr j (by omega)
      obtain ⟨q', e1', -, e3'⟩ := hctr (j + 1) (by omega)
      rw [e3, e3']
      exact hc.asc pos hp j q q' (by omega) e1 e1') ho).2 i (by omega)
  unfold edgesF
  dsimp only
  rw [ho]
  exact this

/-- **C212** (cell averaging): with coordinates that do not decrease, regridding succeeds in floating-point arithmetic and gives the exact averages on the cells that `get_edges_1d`
computed: the missing points are the same, and the values differ by at most `3 (n + 5) u M`, for `n` points along the row and data bounded by `M`. -/
theorem C212_cellave {fl : ℚ → ℚ} {u : ℚ} (R : Rounds fl u) (O : Ordered fl) (o : RegridOpts) (hm : NamedCellave o.method) (he : ExtrapKnown o.extrap)
    (da cin cout : LArr V) (dim0 dim1 : String) (h : FlushIn da cin cout dim0 dim1) (hc : Compat da cout dim0 dim1)
    (hne : ∀ d ∈ outDims da cout dim0 dim1, 0 < outSize da cout dim1 d)
    (hi2 : 2 ≤ cin.size dim0) (ho2 : 2 ≤ cout.size dim1) (hi : StoredCoord fl cin dim0) (ho : StoredCoord fl cout dim1)
    (hn : ((da.size dim0 : ℚ) + 4) * u ≤ 1 / 8)
    (M : ℚ) (hM : 0 ≤ M) (hv : ∀ pos : String → Nat, InsideBut da dim0 pos → ∀ (j : Nat) (q : ℚ), j < da.size dim0 → da.at (moved pos dim0 j) = some q → |q| ≤ M) :
    ∃ out' out, regrid1dF fl o da cin cout dim0 dim1 = .ok out' ∧ regridWith (cellaveOn fl) da cin cout dim0 dim1 = .ok out ∧
      out'.dims = out.dims ∧ out.dims = outDims da cout dim0 dim1 ∧ (∀ d ∈ out.dims, out'.size d = out.size d ∧ out.size d = outSize da cout dim1 d) ∧
      ∀ pos : String → Nat, (∀ d ∈ out.dims, pos d < out.size d) →
        Within2 (3 * ((da.size dim0 : ℚ) + 5) * u * M) (out'.at pos) (out.at pos) := by
  have hu := R.nonneg
  have hnn : (0 : ℚ) ≤ da.size dim0 := Nat.cast_nonneg _
  have hE : (0 : ℚ) ≤ 3 * ((da.size dim0 : ℚ) + 5) * u * M := by positivity
  obtain ⟨f0, hf0, c1, c2, c3, -⟩ := flush_rows da cin cout dim0 dim1 h hc hne
  have e' : regrid1dF fl o da cin cout dim0 dim1 = regridWith (cellaveKF fl) da cin cout dim0 dim1 := by
    obtain ⟨e, he⟩ := he
    have hm' : enumGet regridMethods o.method = some (-1) := by
      generalize o.method = a at hm
      cases hm <;> decide
    have g1 : enumGetE regridMethods o.method = .ok (-1) := by unfold enumGetE; rw [hm']
    have g2 : enumGetE extrapModes o.extrap = .ok e := by unfold enumGetE; rw [he]
    have hk : callInterpF fl (((enumName regridMethods (-1)).getD []) ++ "1d".toList) {} f0.daIn f0.coordIn f0.coordOut =
        .ok (cellaveKF fl f0.daIn f0.coordIn f0.coordOut) := by
      have : ((enumName regridMethods (-1)).getD []) ++ "1d".toList = "cellave1d".toList := by decide
      rw [this]
      unfold callInterpF edgesMatF
      rw [if_neg (by decide), if_neg (by decide), if_neg (by decide), if_neg (by decide), if_pos rfl, if_neg (by omega), if_neg (by omega)]
      rfl
    unfold regrid1dF regridWith
    rw [hf0]
    simp only [bind, Except.bind]
    rw [g1, g2]
    simp only [memberEqStr, Bool.false_eq_true, if_false, extrapOfMember, hk]
    split
    · rw [extrap1d_other]
    · rfl
  rw [e']
  refine regridWith_two (cellaveKF fl) (cellaveOn fl) (fun _ _ _ => ⟨rfl, by simp [cellaveKF, edgesF, NMat.toM, cellave1dF]⟩)
    (fun _ _ _ => ⟨rfl, by simp [cellaveOn, edgesF, NMat.toM, cellave1d]⟩) da cin cout dim0 dim1 h hc hne
    (fun _ x' x => Within2 (3 * ((da.size dim0 : ℚ) + 5) * u * M) x' x) ?_
  intro f _ b1 b2 b3 b4 b5 b6 rd ri ro pos r hr hj hrow
  have hcd : cin.size dim0 = da.size dim0 := h.csz _ h.c0
  have hg : CellGrid f.daIn.toN (edgesF fl f.coordIn) (edgesF fl f.coordOut) := by
    refine ⟨b6, b4, b5, fun r' i hr' hi' => ?_, fun r' i hr' hi' => ?_⟩
    · have hi' : i < f.daIn.ny := hi'
      exact edgesF_asc O cin dim0 hi hi2 f.coordIn b2 ri r' i hr' (by omega)
    · have hi' : i < f.coordOut.ny + 1 - 1 := hi'
      exact edgesF_asc O cout dim1 ho ho2 f.coordOut b3 ro r' i hr' (by omega)
  have hk : pos dim1 < (edgesF fl f.coordOut).ny - 1 := by
    show pos dim1 < f.coordOut.ny + 1 - 1; omega
  have hrr : r < f.daIn.toN.nx := hr
  have hb : ∀ (r' i : Nat), r' < f.daIn.toN.nx → i < f.daIn.toN.ny → ∀ x, f.daIn.toN.get r' i = some x → |x| ≤ M := by
    intro r' i hr' hi' x hx
    have hi' : i < f.daIn.ny := hi'
    obtain ⟨p, hp, e⟩ := rd r' hr'
    have hx : f.daIn.get (r' : Nat) (i : Nat) = some x := hx
    rw [e i (by omega)] at hx
    exact hv p hp i x (by omega) hx
  have hn' : ((f.daIn.toN.ny : ℚ) + 4) * u ≤ 1 / 8 := by
    show ((f.daIn.ny : ℚ) + 4) * u ≤ 1 / 8
    rw [b1]; exact hn
  have hny : f.daIn.toN.ny = da.size dim0 := b1
  show Within2 _ ((cellave1dF fl f.daIn.toN (edgesF fl f.coordIn) (edgesF fl f.coordOut) false .no).get r (pos dim1))
    ((cellave1d f.daIn.toN (edgesF fl f.coordIn) (edgesF fl f.coordOut) false .no).get r (pos dim1))
  rcases eq_or_lt_of_le (hg.asco (r % (edgesF fl f.coordOut).nx) (pos dim1) (Nat.mod_lt _ hg.nxo) hk) with heq | hlt
  · rw [C209_no_width R _ _ _ false .no hg r (pos dim1) hrr hk heq M hM hb hn',
      cellave1d_get _ _ _ false .no hg.nxi hg.asci hg.asco hg.nxib hg.nxo r (pos dim1) hrr hk]
    unfold caCellSpec
    rw [if_pos heq]
    exact Or.inr ⟨0, 0, rfl, rfl, by simpa using hE⟩
  · have h1 := C209_mean R _ _ _ .no hg r (pos dim1) hrr hk hlt M hM hb hn'
    have h2 := C10_cellave1d_mean _ _ _ .no hg r (pos dim1) hrr hk hlt
    dsimp only at h1 h2
    rw [h2]
    split
    · rename_i hW
      exact Or.inl ⟨h1.1 hW, rfl⟩
    · rename_i hW
      obtain ⟨q, e1, e2⟩ := h1.2 hW
      rw [hny] at e2
      refine Or.inr ⟨_, q, e1, rfl, ?_⟩
      rw [hny]
      exact e2

/-! ## Refusals -/

/-- two results of the interpolation: the same exception, or arrays of the same shape -/
def SameOutcome (x' x : Except CErr Mat) : Prop := (∃ e, x' = .error e ∧ x = .error e) ∨ ∃ m' m, x' = .ok m' ∧ x = .ok m ∧ m'.nx = m.nx ∧ m'.ny = m.ny

theorem SameOutcome.ok {m' m : Mat} (nx ny : Nat) (h1 : m'.nx = nx) (h2 : m'.ny = ny) (h3 : m.nx = nx) (h4 : m.ny = ny) : SameOutcome (.ok m') (.ok m) :=
  Or.inr ⟨m', m, rfl, rfl, h1.trans h3.symm, h2.trans h4.symm⟩

theorem callInterpF_same (fl : ℚ → ℚ) (name : Str) (kw : RegridKw) (v yi yo : Mat) : SameOutcome (callInterpF fl name kw v yi yo) (callInterp name kw v yi yo) := by
  unfold callInterpF callInterp
  by_cases h1 : name = "linear1d".toList
  · rw [if_pos h1, if_pos h1]; exact .ok (max v.nx yo.nx) yo.ny rfl rfl rfl rfl
  rw [if_neg h1, if_neg h1]
  by_cases h2 : name = "nearest1d".toList
  · rw [if_pos h2, if_pos h2]; exact .ok (max v.nx yo.nx) yo.ny rfl rfl rfl rfl
  rw [if_neg h2, if_neg h2]
  by_cases h3 : name = "cubic1d".toList
  · rw [if_pos h3, if_pos h3]; exact .ok (max v.nx yo.nx) yo.ny rfl rfl rfl rfl
  rw [if_neg h3, if_neg h3]
  by_cases h4 : name = "hermit1d".toList
  · rw [if_pos h4, if_pos h4]; exact .ok (max v.nx yo.nx) yo.ny rfl rfl rfl rfl
  rw [if_neg h4, if_neg h4]
  by_cases h5 : name = "cellave1d".toList
  · rw [if_pos h5, if_pos h5]
    unfold edgesMatF edgesMat
    by_cases g1 : yi.ny < 2
    · rw [if_pos g1, if_pos g1]; exact Or.inl ⟨_, rfl, rfl⟩
    · rw [if_neg g1, if_neg g1]
      by_cases g2 : yo.ny < 2
      · rw [if_pos g2, if_pos g2]; exact Or.inl ⟨_, rfl, rfl⟩
      · rw [if_neg g2, if_neg g2]; exact .ok (max v.nx yo.nx) (yo.ny + 1 - 1) rfl rfl rfl rfl
  · rw [if_neg h5, if_neg h5]; exact Or.inl ⟨_, rfl, rfl⟩

theorem getBack_error (f : Flushed) (m' m : Mat) (hx : m'.nx = m.nx) (hy : m'.ny = m.ny) (e : CErr) : getBack f m' = .error e ↔ getBack f m = .error e := by
  obtain ⟨md, mi, mo, ws, wd, fd⟩ := f
  obtain ⟨nx, ny, g⟩ := m
  obtain ⟨nx', ny', g'⟩ := m'
  dsimp only at hx hy
  subst hx hy
  rcases getBack_plan ws wd fd nx' ny' with ⟨e1, hb⟩ | ⟨d', sh', h, hb⟩
  · rw [hb, hb]
  · rw [hb, hb]; simp

/-- **C212** (refusals): for every input, the calls that fail in floating-point arithmetic are those that fail in exact arithmetic, with the same exception: rounding never decides. -/
theorem C212_errors (fl : ℚ → ℚ) (o : RegridOpts) (da cin cout : LArr V) (dim0 dim1 : String) (e : CErr) :
    regrid1dF fl o da cin cout dim0 dim1 = .error e ↔ regrid1d o da cin cout dim0 dim1 = .error e := by
  unfold regrid1dF regrid1d
  cases hf : flush da cin cout dim0 dim1 with
  | error x => simp only [bind, Except.bind]
  | ok f =>
    simp only [bind, Except.bind]
    cases hm : enumGetE regridMethods o.method with
    | error x => simp only []
    | ok m =>
      simp only [memberEqStr, Bool.false_eq_true, if_false, extrapOfMember, extrap1d_other]
      rcases callInterpF_same fl (((enumName regridMethods m).getD []) ++ "1d".toList) {} f.daIn f.coordIn f.coordOut with ⟨x, h1, h2⟩ | ⟨m', m0, h1, h2, h3, h4⟩
      · rw [h1, h2]
      · rw [h1, h2]
        dsimp only
        clear h1 h2
        cases enumGetE extrapModes o.extrap with
        | error x => simp only []
        | ok n => simpa using getBack_error f m' m0 h3 h4 e

/-- **C212** applies to the types `float64` and `float32`. -/
theorem C212_float64 : (Rounds (rne 53) (1 / 2 ^ 53) ∧ Ordered (rne 53) ∧ (1 : ℚ) / 2 ^ 53 ≤ 1 / 1048576) ∧
    (Rounds (rne 24) (1 / 2 ^ 24) ∧ Ordered (rne 24) ∧ (1 : ℚ) / 2 ^ 24 ≤ 1 / 1048576) :=
  ⟨⟨rne_rounds 53 (by norm_num), rne_ordered 53 (by norm_num), by norm_num⟩, ⟨rne_rounds 24 (by norm_num), rne_ordered 24 (by norm_num), by norm_num⟩⟩

/-! ## Non-vacuity -/

-- data (t, x, z), input depths (t, z), output depths (zo): a layout whose rows are not paired correctly (C19), in `float64`
example : ∃ out' out, regrid1dF fl64 {} exDa exCinT exCout "z" "zo" = .ok out' ∧ regrid1d {} exDa exCinT exCout "z" "zo" = .ok out ∧ out'.dims = out.dims := by
  obtain ⟨out', out, h1, h2, h3, -⟩ := C212_accurate (fl := fl64) (u := 1 / 2 ^ 53) (rne_rounds 53 (by norm_num)) (by norm_num) {} 6 .default ⟨_, rfl⟩ exDa exCinT exCout "z" "zo"
    C19_violated_1d.1 C19_violated_1d.2.1 (by decide +kernel)
  exact ⟨out', out, h1, h2, h3⟩

/-- an array of two dimensions -/
def exF2 : LArr V := ⟨["t", "z"], [2, 3], fun idx => ([some (1 / 8), some 2, none, some 4, some (-1), some 3] : List V).getD (idx.getD 0 0 * 3 + idx.getD 1 0) none⟩
/-- its depths -/
def exFz : LArr V := ⟨["z"], [3], fun idx => ([some 0, some 1, some 3] : List V).getD (idx.getD 0 0) none⟩
/-- the new depths -/
def exFo : LArr V := ⟨["z"], [2], fun idx => ([some (1 / 2), some 2] : List V).getD (idx.getD 0 0) none⟩

theorem exF_in : FlushIn exF2 exFz exFo "z" "z" := by
  constructor <;> first | decide | (constructor <;> decide)

theorem exF_n : exF2.size "z" = 3 := by decide

theorem exF_compat : Compat exF2 exFo "z" "z" := by
  constructor <;> decide

theorem exFz_stored : StoredCoord fl64 exFz "z" := by
  have hv : ∀ (pos : String → Nat) (k : Nat), exFz.at (moved pos "z" k) = ([some 0, some 1, some 3] : List V).getD k none := fun pos k => rfl
  constructor
  · intro pos _ k hk
    rw [hv]
    have hk : k < 3 := hk
    obtain rfl | rfl | rfl : k = 0 ∨ k = 1 ∨ k = 2 := by omega
    · exact ⟨0, rfl, by decide +kernel⟩
    · exact ⟨1, rfl, by decide +kernel⟩
    · exact ⟨3, rfl, by decide +kernel⟩
  · intro pos _ k a b hk
    rw [hv, hv]
    have hk : k + 1 < 3 := hk
    obtain rfl | rfl : k = 0 ∨ k = 1 := by omega
    · rintro ⟨⟩ ⟨⟩; norm_num
    · rintro ⟨⟩ ⟨⟩; norm_num

theorem exFo_stored : StoredCoord fl64 exFo "z" := by
  have hv : ∀ (pos : String → Nat) (k : Nat), exFo.at (moved pos "z" k) = ([some (1 / 2), some 2] : List V).getD k none := fun pos k => rfl
  constructor
  · intro pos _ k hk
    rw [hv]
    have hk : k < 2 := hk
    obtain rfl | rfl : k = 0 ∨ k = 1 := by omega
    · exact ⟨1 / 2, rfl, by decide +kernel⟩
    · exact ⟨2, rfl, by decide +kernel⟩
  · intro pos _ k a b hk
    rw [hv, hv]
    have hk : k + 1 < 2 := hk
    obtain rfl : k = 0 := by omega
    rintro ⟨⟩ ⟨⟩; norm_num

-- the hypotheses of `C212_cellave` are met
example : ∃ out' out, regrid1dF fl64 { method := .str "cellave".toList } exF2 exFz exFo "z" "z" = .ok out' ∧ regridWith (cellaveOn fl64) exF2 exFz exFo "z" "z" = .ok out ∧
    out'.dims = out.dims := by
  obtain ⟨out', out, h1, h2, h3, -⟩ := C212_cellave (fl := fl64) (u := 1 / 2 ^ 53) (rne_rounds 53 (by norm_num)) fl64_ordered { method := .str "cellave".toList } .name ⟨_, rfl⟩
    exF2 exFz exFo "z" "z" exF_in exF_compat (by decide +kernel) (by decide) (by decide) exFz_stored exFo_stored
    (by rw [exF_n]; norm_num) 4 (by norm_num) (by
      intro pos hp j q hj hq
      have ht : pos "t" < 2 := hp "t" (by decide) (by decide)
      have hj : j < 3 := hj
      have e : exF2.at (moved pos "z" j) = ([some (1 / 8), some 2, none, some 4, some (-1), some 3] : List V).getD (pos "t" * 3 + j) none := rfl
      rw [e] at hq
      generalize pos "t" = t at *
      obtain rfl | rfl : t = 0 ∨ t = 1 := by omega
      all_goals
        obtain rfl | rfl | rfl : j = 0 ∨ j = 1 ∨ j = 2 := by omega
        all_goals first
          | (cases hq; done)
          | (cases hq; rw [abs_le]; constructor <;> norm_num))
  exact ⟨out', out, h1, h2, h3⟩

end Xoa
