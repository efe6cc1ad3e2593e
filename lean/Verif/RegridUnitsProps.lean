import Verif.Interp1dUnitsProps
import Verif.RegridProps

/-!
# C158, C159 for `regrid1d`: units of the coordinates and of the data

The plan of the flushing of the dimensions (which value goes to which row) depends on the names and on the sizes of the
dimensions, not on the values.
-/

namespace Xoa
open V

/-- the array with all its values changed by `f` -/
def LArr.mapVals {α β : Type} (f : α → β) (a : LArr α) : LArr β := ⟨a.dims, a.shape, fun i => f (a.val i)⟩

/-- the array in other units: `x` becomes `s x + t`, missing values stay missing -/
def LArr.inUnits (s t : ℚ) (a : LArr V) : LArr V := a.mapVals fun v => v.map fun x => s * x + t

/-- `a A + b B` of two arrays with the same dimensions and sizes, missing where one of them is missing -/
def LArr.combine (a b : ℚ) (A B : LArr V) : LArr V := ⟨A.dims, A.shape, fun i => match A.val i, B.val i with
  | some x, some y => some (a * x + b * y)
  | _, _ => none⟩

/-! ## the plan -/

/-- the values of the data and of the two coordinates -/
structure Vals where
  d : List Nat → V
  i : List Nat → V
  o : List Nat → V

/-- a computation that fails the same way for all values, or gives a result planned as `P` says -/
def Uniform {α : Type} (P : (Vals → α) → Prop) (X : Vals → Except CErr α) : Prop :=
  (∃ e, ∀ v, X v = .error e) ∨ ∃ a, P a ∧ ∀ v, X v = .ok (a v)

theorem Uniform.bind {α β : Type} {P : (Vals → α) → Prop} {Q : (Vals → β) → Prop} {X : Vals → Except CErr α} {F : Vals → α → Except CErr β}
    (hX : Uniform P X) (hF : ∀ a, P a → Uniform Q fun v => F v (a v)) : Uniform Q fun v => X v >>= F v := by
  rcases hX with ⟨e, he⟩ | ⟨a, ha, he⟩
  · exact .inl ⟨e, fun v => by show X v >>= F v = _; rw [he]; rfl⟩
  · have : (fun v => X v >>= F v) = fun v => F v (a v) := by funext v; rw [he]; rfl
    rw [this]; exact hF a ha

theorem Uniform.error {α : Type} {P : (Vals → α) → Prop} (e : CErr) : Uniform P fun _ => .error e := .inl ⟨e, fun _ => rfl⟩

theorem Uniform.ite {α : Type} {P : (Vals → α) → Prop} {cond : Prop} {dec : Vals → Decidable cond} {X Y : Vals → Except CErr α} (hX : Uniform P X) (hY : Uniform P Y) :
    Uniform P fun v => @_root_.ite _ cond (dec v) (X v) (Y v) := by
  by_cases h : cond
  · have : (fun v => @_root_.ite _ cond (dec v) (X v) (Y v)) = X := by funext v; exact if_pos h
    rw [this]; exact hX
  · have : (fun v => @_root_.ite _ cond (dec v) (X v) (Y v)) = Y := by funext v; exact if_neg h
    rw [this]; exact hY

/-- an array with the values `sel`, put at places that do not depend on the values -/
def PArr (sel : Vals → List Nat → V) (a : Vals → LArr V) : Prop :=
  ∃ (d : List String) (sh : List Nat) (g : List Nat → List Nat), a = fun v => ⟨d, sh, fun i => sel v (g i)⟩

/-- a flattened array -/
def PMat (sel : Vals → List Nat → V) (m : Vals → Mat) : Prop :=
  ∃ (nx ny : Nat) (g : Int → Int → List Nat), m = fun v => ⟨nx, ny, fun i j => sel v (g i j)⟩

theorem xrTranspose_plan (sel : Vals → List Nat → V) (a : Vals → LArr V) (h : PArr sel a) (ds : List (Option String)) :
    Uniform (PArr sel) fun v => xrTranspose (a v) ds := by
  obtain ⟨d, sh, g, rfl⟩ := h
  unfold xrTranspose
  generalize hf : (if ds = [] then d.reverse else ds.flatMap (infixOne d ds)) = full
  dsimp only
  rw [hf]
  apply Uniform.ite
  · exact .inr ⟨_, ⟨full, full.map (look d sh), fun idx => g (d.map (look full idx)), rfl⟩, fun v => rfl⟩
  · exact .error _

theorem flat2_plan (sel : Vals → List Nat → V) (a : Vals → LArr V) (h : PArr sel a) : Uniform (PMat sel) fun v => (a v).flat2 := by
  obtain ⟨d, sh, g, rfl⟩ := h
  unfold LArr.flat2
  dsimp only
  apply Uniform.ite
  · exact .error _
  · exact .inr ⟨_, ⟨sh.dropLast.prod, sh.getLastD 0, fun i j => g (unravel sh (i.toNat * sh.getLastD 0 + j.toNat)), rfl⟩, fun v => rfl⟩

/-- the dimensions of the array of dimensions `d` broadcast like the one of dimensions `d2` -/
def bcDims (d d2 : List String) (dim0 dim1 : String) : List String :=
  d2.filter (fun x => x ≠ dim0 ∧ x ≠ dim1) ++ d.filter (fun x => x ≠ dim0 ∧ x ≠ dim1 ∧ x ∉ d2) ++
    (if dim0 = dim1 then [dim0] else [dim0, dim1]).filter (fun x => x ∈ d)

theorem broadcast_plan (sel sel2 : Vals → List Nat → V) (a b : Vals → LArr V) (h : PArr sel a) (h2 : PArr sel2 b) (dim0 dim1 : String) :
    PArr sel fun v => (a v).broadcastLike (b v) dim0 dim1 := by
  obtain ⟨d, sh, g, rfl⟩ := h
  obtain ⟨d2, sh2, g2, rfl⟩ := h2
  unfold LArr.broadcastLike
  dsimp only [LArr.size]
  exact ⟨bcDims d d2 dim0 dim1, (bcDims d d2 dim0 dim1).map (fun x => if x ∈ d then look d sh x else look d2 sh2 x),
    fun idx => g (d.map (look (bcDims d d2 dim0 dim1) idx)), rfl⟩

theorem ite_plan (sel : Vals → List Nat → V) (a b : Vals → LArr V) (h : PArr sel a) (h2 : PArr sel b) (c : Prop) [Decidable c] :
    PArr sel fun v => if c then a v else b v := by
  by_cases hc : c
  · simp only [if_pos hc]; exact h
  · simp only [if_neg hc]; exact h2

/-- what the constructor of the flusher gives, planned -/
def PFlush (F : Vals → Flushed) : Prop := ∃ (md mi mo : Vals → Mat) (ws : List Nat) (wd fd : List String),
  PMat Vals.d md ∧ PMat Vals.i mi ∧ PMat Vals.o mo ∧ F = fun v => ⟨md v, mi v, mo v, ws, wd, fd⟩

/-- The names and the sizes of the dimensions decide if the flushing fails, and where each value goes. -/
theorem flush_plan (dd di dou : List String) (sd si so : List Nat) (dim0 dim1 : String) :
    Uniform PFlush fun v => flush ⟨dd, sd, v.d⟩ ⟨di, si, v.i⟩ ⟨dou, so, v.o⟩ dim0 dim1 := by
  unfold flush
  dsimp only [LArr.size]
  apply Uniform.ite
  · exact .error _
  apply Uniform.ite
  · exact .error _
  refine Uniform.bind (xrTranspose_plan Vals.d _ ⟨dd, sd, id, rfl⟩ _) ?_
  rintro _ ⟨d1, s1, g1, rfl⟩
  refine Uniform.bind (xrTranspose_plan Vals.o _ ⟨dou, so, id, rfl⟩ _) ?_
  rintro _ ⟨d2, s2, g2, rfl⟩
  have hA := ite_plan Vals.d _ _ (broadcast_plan Vals.d Vals.o _ _ ⟨d1, s1, g1, rfl⟩ ⟨d2, s2, g2, rfl⟩ dim0 dim1) ⟨d1, s1, g1, rfl⟩
    (strictSub d1.dropLast d2.dropLast)
  have hB : PArr Vals.i fun v => (⟨di, si, v.i⟩ : LArr V).permute (d1.filter (· ∈ di)) :=
    ⟨d1.filter (· ∈ di), (d1.filter (· ∈ di)).map (look di si), fun idx => di.map (look (d1.filter (· ∈ di)) idx), rfl⟩
  have hC := ite_plan Vals.i _ _ (broadcast_plan Vals.i Vals.o _ _ hB ⟨d2, s2, g2, rfl⟩ dim0 dim1) hB (d2.length > 1)
  obtain ⟨d3, s3, g3, e3⟩ := hA
  obtain ⟨d4, s4, g4, e4⟩ := hC
  have hD := ite_plan Vals.o _ _ (broadcast_plan Vals.o Vals.i _ _ ⟨d2, s2, g2, rfl⟩ ⟨d4, s4, g4, rfl⟩ dim0 dim1) ⟨d2, s2, g2, rfl⟩
    (d2.length > 1 ∧ strictSub d2.dropLast d4.dropLast)
  obtain ⟨d5, s5, g5, e5⟩ := hD
  have e3' := fun v => congrFun e3 v
  have e4' := fun v => congrFun e4 v
  have e5' := fun v => congrFun e5 v
  simp only [] at e3' e4' e5' ⊢
  simp only [e3', e4', e5']
  refine Uniform.bind (flat2_plan Vals.d _ ⟨d3, s3, g3, rfl⟩) fun md hmd => ?_
  refine Uniform.bind (flat2_plan Vals.i _ ⟨d4, s4, g4, rfl⟩) fun mi hmi => ?_
  refine Uniform.bind (flat2_plan Vals.o _ ⟨d5, s5, g5, rfl⟩) fun mo hmo => ?_
  exact .inr ⟨_, ⟨md, mi, mo, _, _, _, hmd, hmi, hmo, rfl⟩, fun v => rfl⟩

theorem getBack_plan (ws : List Nat) (wd fd : List String) (nx ny : Nat) :
    (∃ e, ∀ md mi mo g, getBack ⟨md, mi, mo, ws, wd, fd⟩ ⟨nx, ny, g⟩ = .error e) ∨
    (∃ (d : List String) (sh : List Nat) (h : List Nat → Int × Int), ∀ md mi mo g,
      getBack ⟨md, mi, mo, ws, wd, fd⟩ ⟨nx, ny, g⟩ = .ok ⟨d, sh, fun i => g (h i).1 (h i).2⟩) := by
  unfold getBack unflat2
  by_cases h : nx * ny = ws.prod
  · simp only [if_pos h]
    by_cases h2 : (let full := if (none :: fd.map some) = [] then wd.reverse else (none :: fd.map some).flatMap (infixOne wd (none :: fd.map some))
      full.Nodup ∧ (∀ x ∈ full, x ∈ wd) ∧ (∀ x ∈ wd, x ∈ full))
    · right
      refine ⟨(none :: fd.map some).flatMap (infixOne wd (none :: fd.map some)), ((none :: fd.map some).flatMap (infixOne wd (none :: fd.map some))).map (look wd ws),
        fun idx => (((ravel ws (wd.map (look ((none :: fd.map some).flatMap (infixOne wd (none :: fd.map some))) idx)) / ny : Nat) : Int),
        ((ravel ws (wd.map (look ((none :: fd.map some).flatMap (infixOne wd (none :: fd.map some))) idx)) % ny : Nat) : Int)), fun md mi mo g => ?_⟩
      exact if_pos h2
    · left
      exact ⟨_, fun md mi mo g => if_neg h2⟩
  · simp only [if_neg h]
    exact .inl ⟨_, fun _ _ _ _ => rfl⟩

/-- the result of the whole chain when the routine gives the same rows -/
theorem regridWith_coords (K : Mat → Mat → Mat → Mat) (f : V → V)
    (hK : ∀ m mi mo : Mat, K m ⟨mi.nx, mi.ny, fun i j => f (mi.get i j)⟩ ⟨mo.nx, mo.ny, fun i j => f (mo.get i j)⟩ = K m mi mo)
    (da cin cout : LArr V) (dim0 dim1 : String) :
    regridWith K da (cin.mapVals f) (cout.mapVals f) dim0 dim1 = regridWith K da cin cout dim0 dim1 := by
  obtain ⟨dd, sd, vd⟩ := da
  obtain ⟨di, si, vi⟩ := cin
  obtain ⟨dou, so, vo⟩ := cout
  unfold regridWith
  simp only [LArr.mapVals]
  rcases flush_plan dd di dou sd si so dim0 dim1 with ⟨e, he⟩ | ⟨F, ⟨md, mi, mo, ws, wd, fd, ⟨nx, ny, g, rfl⟩, ⟨nx2, ny2, g2, rfl⟩, ⟨nx3, ny3, g3, rfl⟩, rfl⟩, he⟩
  · have e1 := he ⟨vd, vi, vo⟩
    have e2 := he ⟨vd, fun i => f (vi i), fun i => f (vo i)⟩
    dsimp only at e1 e2
    rw [e1, e2]
  · have e1 := he ⟨vd, vi, vo⟩
    have e2 := he ⟨vd, fun i => f (vi i), fun i => f (vo i)⟩
    dsimp only at e1 e2
    rw [e1, e2]
    have hk := hK ⟨nx, ny, fun i j => vd (g i j)⟩ ⟨nx2, ny2, fun i j => vi (g2 i j)⟩ ⟨nx3, ny3, fun i j => vo (g3 i j)⟩
    dsimp only at hk
    show getBack _ (K _ _ _) = getBack _ (K _ _ _)
    rw [hk]
    rfl

/-- the result of the whole chain when the routine gives rows that are combined as the data -/
theorem regridWith_data (K : Mat → Mat → Mat → Mat) (c : V → V → V)
    (hK : ∀ (m1 m2 m3 mi mo : Mat), m2.nx = m1.nx → m2.ny = m1.ny → m3 = ⟨m1.nx, m1.ny, fun i j => c (m1.get i j) (m2.get i j)⟩ →
      (K m2 mi mo).nx = (K m1 mi mo).nx ∧ (K m2 mi mo).ny = (K m1 mi mo).ny ∧
      K m3 mi mo = ⟨(K m1 mi mo).nx, (K m1 mi mo).ny, fun i j => c ((K m1 mi mo).get i j) ((K m2 mi mo).get i j)⟩)
    (d : List String) (sh : List Nat) (v1 v2 : List Nat → V) (cin cout : LArr V) (dim0 dim1 : String) :
    (∃ e, regridWith K ⟨d, sh, v1⟩ cin cout dim0 dim1 = .error e ∧ regridWith K ⟨d, sh, v2⟩ cin cout dim0 dim1 = .error e ∧
      regridWith K ⟨d, sh, fun i => c (v1 i) (v2 i)⟩ cin cout dim0 dim1 = .error e) ∨
    (∃ r1 r2, regridWith K ⟨d, sh, v1⟩ cin cout dim0 dim1 = .ok r1 ∧ regridWith K ⟨d, sh, v2⟩ cin cout dim0 dim1 = .ok r2 ∧
      r2.dims = r1.dims ∧ r2.shape = r1.shape ∧
      regridWith K ⟨d, sh, fun i => c (v1 i) (v2 i)⟩ cin cout dim0 dim1 = .ok ⟨r1.dims, r1.shape, fun i => c (r1.val i) (r2.val i)⟩) := by
  obtain ⟨di, si, vi⟩ := cin
  obtain ⟨dou, so, vo⟩ := cout
  unfold regridWith
  rcases flush_plan d di dou sh si so dim0 dim1 with ⟨e, he⟩ | ⟨F, ⟨md, mi, mo, ws, wd, fd, ⟨nx, ny, g, rfl⟩, ⟨nx2, ny2, g2, rfl⟩, ⟨nx3, ny3, g3, rfl⟩, rfl⟩, he⟩
  · left
    have e1 := he ⟨v1, vi, vo⟩
    have e2 := he ⟨v2, vi, vo⟩
    have e3 := he ⟨fun i => c (v1 i) (v2 i), vi, vo⟩
    dsimp only at e1 e2 e3
    rw [e1, e2, e3]
    exact ⟨e, rfl, rfl, rfl⟩
  · have e1 := he ⟨v1, vi, vo⟩
    have e2 := he ⟨v2, vi, vo⟩
    have e3 := he ⟨fun i => c (v1 i) (v2 i), vi, vo⟩
    dsimp only at e1 e2 e3
    rw [e1, e2, e3]
    obtain ⟨k1, k2, k3⟩ := hK ⟨nx, ny, fun i j => v1 (g i j)⟩ ⟨nx, ny, fun i j => v2 (g i j)⟩ ⟨nx, ny, fun i j => c (v1 (g i j)) (v2 (g i j))⟩
      ⟨nx2, ny2, fun i j => vi (g2 i j)⟩ ⟨nx3, ny3, fun i j => vo (g3 i j)⟩ rfl rfl rfl
    simp only [Except.bind, bind] at *
    rw [k3]
    generalize K ⟨nx, ny, fun i j => v1 (g i j)⟩ ⟨nx2, ny2, fun i j => vi (g2 i j)⟩ ⟨nx3, ny3, fun i j => vo (g3 i j)⟩ = M1 at *
    generalize K ⟨nx, ny, fun i j => v2 (g i j)⟩ ⟨nx2, ny2, fun i j => vi (g2 i j)⟩ ⟨nx3, ny3, fun i j => vo (g3 i j)⟩ = M2 at *
    obtain ⟨n1, p1, q1⟩ := M1
    obtain ⟨n2, p2, q2⟩ := M2
    dsimp only at k1 k2
    subst k1 k2
    rcases getBack_plan ws wd fd n2 p2 with ⟨e, hb⟩ | ⟨d', sh', h, hb⟩
    · left; exact ⟨e, hb _ _ _ _, hb _ _ _ _, hb _ _ _ _⟩
    · right; exact ⟨_, _, hb _ _ _ _, hb _ _ _ _, rfl, rfl, hb _ _ _ _⟩

/-! ## the theorems -/

theorem Named.cases {a : EArg} {K : Mat → Mat → Mat → Mat} (h : Named a K) :
    K = linear1d ∨ K = nearest1d ∨ K = cubic1d ∨ K = fun v yi yo => hermit1d v yi yo 0 0 := by
  cases h <;> simp

/-- **C158 (`regrid1d`).** With each interpolation method, regridding does not depend on the units of the coordinate: the same change of
units (positive factor, any origin) of the input and of the output coordinates gives the same array, or the same exception, for
data and coordinates with any dimensions. -/
theorem C158_regrid1d (o : RegridOpts) (K : Mat → Mat → Mat → Mat) (hK : Named o.method K) (he : ExtrapKnown o.extrap) (da cin cout : LArr V)
    (dim0 dim1 : String) (s t : ℚ) (hs : 0 < s) :
    regrid1d o da (cin.inUnits s t) (cout.inUnits s t) dim0 dim1 = regrid1d o da cin cout dim0 dim1 := by
  rw [C21_method o K hK he, C21_method o K hK he]
  refine regridWith_coords K (fun v => v.map fun x => s * x + t) (fun m mi mo => ?_) da cin cout dim0 dim1
  obtain ⟨h1, h2, h3, h4⟩ := C158_coordinate_units s t hs m mi mo 0 0
  rcases hK.cases with rfl | rfl | rfl | rfl
  · exact h1
  · exact h2
  · exact h3
  · exact h4

/-- **C159 (`regrid1d`, units of the data).** With each interpolation method, regridding data in other units (any factor, any origin) gives the
result in these units, missing values included, or the same exception. -/
theorem C159_regrid1d_units (o : RegridOpts) (K : Mat → Mat → Mat → Mat) (hK : Named o.method K) (he : ExtrapKnown o.extrap) (da cin cout : LArr V)
    (dim0 dim1 : String) (s t : ℚ) :
    regrid1d o (da.inUnits s t) cin cout dim0 dim1 = (regrid1d o da cin cout dim0 dim1).map (LArr.inUnits s t) := by
  rw [C21_method o K hK he, C21_method o K hK he]
  obtain ⟨d, sh, v⟩ := da
  have key := regridWith_data K (affV s t) ?_ d sh v v cin cout dim0 dim1
  · rcases key with ⟨e, h1, _, h3⟩ | ⟨r1, r2, h1, h2, _, _, h3⟩
    · have h3' : regridWith K (LArr.inUnits s t ⟨d, sh, v⟩) cin cout dim0 dim1 = .error e := h3
      rw [h1, h3']; rfl
    · have h3' : regridWith K (LArr.inUnits s t ⟨d, sh, v⟩) cin cout dim0 dim1 = .ok _ := h3
      rw [h1, h3']; rfl
  · rintro m1 m2 m3 mi mo e1 e2 rfl
    obtain ⟨h1, h2, h3, h4⟩ := C159_data_units s t m1 mi mo 0 0
    rcases hK.cases with rfl | rfl | rfl | rfl
    · exact ⟨congrArg (max · mo.nx) e1, rfl, h1⟩
    · exact ⟨congrArg (max · mo.nx) e1, rfl, h2⟩
    · exact ⟨congrArg (max · mo.nx) e1, rfl, h3⟩
    · exact ⟨congrArg (max · mo.nx) e1, rfl, h4⟩

/-- **C159 (`regrid1d`, combination of data).** With each interpolation method, regridding `a A + b B` is combining the regridded `A` and `B`,
missing values included: the three calls succeed, or fail with the same exception. -/
theorem C159_regrid1d_linear (o : RegridOpts) (K : Mat → Mat → Mat → Mat) (hK : Named o.method K) (he : ExtrapKnown o.extrap) (A B cin cout : LArr V)
    (hd : B.dims = A.dims) (hsh : B.shape = A.shape) (dim0 dim1 : String) (a b : ℚ) :
    (∃ e, regrid1d o A cin cout dim0 dim1 = .error e ∧ regrid1d o B cin cout dim0 dim1 = .error e ∧
      regrid1d o (A.combine a b B) cin cout dim0 dim1 = .error e) ∨
    (∃ RA RB, regrid1d o A cin cout dim0 dim1 = .ok RA ∧ regrid1d o B cin cout dim0 dim1 = .ok RB ∧ RB.dims = RA.dims ∧ RB.shape = RA.shape ∧
      regrid1d o (A.combine a b B) cin cout dim0 dim1 = .ok (RA.combine a b RB)) := by
  rw [C21_method o K hK he, C21_method o K hK he, C21_method o K hK he]
  have hcomb : ∀ x y : V, (match x, y with | some x, some y => some (a * x + b * y) | _, _ => none) = comb a b x y := by
    intro x y; cases x <;> cases y <;> rfl
  obtain ⟨d, sh, v1⟩ := A
  obtain ⟨d2, sh2, v2⟩ := B
  dsimp only at hd hsh
  subst hd hsh
  simp only [LArr.combine, hcomb]
  refine regridWith_data K (comb a b) ?_ d2 sh2 v1 v2 cin cout dim0 dim1
  rintro m1 m2 m3 mi mo e1 e2 rfl
  have hr : ∀ M N : Mat, (⟨M.nx, M.ny, fun i j => comb a b (M.get i j) (N.get i j)⟩ : Mat) = M.combine a b N := by
    intro M N
    have : (M.combine a b N).get = fun i j => comb a b (M.get i j) (N.get i j) := by funext i j; exact Mat.combine_get a b M N i j
    rw [← this]; rfl
  rw [hr, hr]
  obtain ⟨h1, h2, h3, h4⟩ := C159_linear a b m1 m2 mi mo ⟨e1.symm, e2.symm⟩ 0 0
  rcases hK.cases with rfl | rfl | rfl | rfl
  · exact ⟨congrArg (max · mo.nx) e1, rfl, h1⟩
  · exact ⟨congrArg (max · mo.nx) e1, rfl, h2⟩
  · exact ⟨congrArg (max · mo.nx) e1, rfl, h3⟩
  · exact ⟨congrArg (max · mo.nx) e1, rfl, h4⟩

/-! ### examples -/

/-- the coordinate in hundreds above the level -3: the same result -/
example : (regrid1d { method := .str "linear".toList } exDa (exCinX.inUnits (1 / 100) 3) (exCout.inUnits (1 / 100) 3) "z" "zo").toOption.map (fun r => r.at (exPos 0 0 0)) =
    (regrid1d { method := .str "linear".toList } exDa exCinX exCout "z" "zo").toOption.map (fun r => r.at (exPos 0 0 0)) := by
  rw [C158_regrid1d _ linear1d .linear ⟨0, by decide⟩ _ _ _ _ _ (1 / 100) 3 (by norm_num)]
example : (regrid1d { method := .str "linear".toList } exDa exCinX exCout "z" "zo").toOption.map (fun r => r.at (exPos 0 0 0)) = some (some 1) := by decide +kernel
example : (regrid1d { method := .str "linear".toList } (exDa.inUnits 1 273) exCinX exCout "z" "zo").toOption.map (fun r => r.at (exPos 0 0 0)) = some (some 274) := by
  decide +kernel
example : (regrid1d { method := .str "linear".toList } (exDa.combine 2 (-1) (exDa.inUnits 1 10)) exCinX exCout "z" "zo").toOption.map (fun r => r.at (exPos 0 0 0)) = some (some (-9)) := by
  decide +kernel

end Xoa
