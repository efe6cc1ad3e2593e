import Verif.SigmaArr

/-! # C213: heights of whole arrays -/

namespace Xoa

/-- the array is a well formed one on the grid: sizes of the grid, no dimension twice -/
structure OnGrid (sz : Str → Nat) (x : SArr) : Prop where
  sized : ∀ d ∈ x.dims, d.2 = sz d.1
  nodup : x.names.Nodup

theorem sameSizes_of (sz : Str → Nat) {a b : SArr} (ha : OnGrid sz a) (hb : OnGrid sz b) : sameSizes a.dims b.dims = true := by
  unfold sameSizes
  rw [List.all_eq_true]
  intro d hd
  rw [List.all_eq_true]
  intro e he
  rw [decide_eq_true_eq]
  by_cases h : d.1 = e.1
  · right; rw [ha.sized d hd, hb.sized e he, h]
  · left; exact h

/-- the outcome of an operation: the dimensions of both, and the values point by point -/
structure Joined (sz : Str → Nat) (f : FVal → FVal → FVal) (a b r : SArr) : Prop where
  grid : OnGrid sz r
  names : ∀ d, d ∈ r.names ↔ d ∈ a.names ∨ d ∈ b.names
  val : ∀ p, r.val p = f (a.val p) (b.val p)

theorem mem_joinDims (a b : SArr) (d : Str) : d ∈ (joinDims a.dims b.dims).map (·.1) ↔ d ∈ a.names ∨ d ∈ b.names := by
  unfold joinDims SArr.names
  simp only [List.map_append, List.mem_append, List.mem_map, List.mem_filter, decide_eq_true_eq, Prod.exists, exists_and_right, exists_eq_right]
  tauto

theorem op_ok (sz : Str → Nat) (f : FVal → FVal → FVal) {a b : SArr} (ha : OnGrid sz a) (hb : OnGrid sz b) :
    ∃ r, SArr.op f a b = .ok r ∧ Joined sz f a b r := by
  refine ⟨⟨joinDims a.dims b.dims, fun p => f (a.val p) (b.val p)⟩, ?_, ⟨?_, ?_⟩, ?_, fun p => rfl⟩
  · unfold SArr.op; rw [if_pos (sameSizes_of sz ha hb)]
  · intro d hd
    unfold joinDims at hd
    rcases List.mem_append.1 hd with h | h
    · exact ha.sized d h
    · exact hb.sized d (List.mem_filter.1 h).1
  · show (List.map (·.1) (joinDims a.dims b.dims)).Nodup
    unfold joinDims
    rw [List.map_append, List.nodup_append]
    refine ⟨ha.nodup, ?_, ?_⟩
    · exact List.Sublist.nodup (List.Sublist.map _ List.filter_sublist) hb.nodup
    · intro x hx y hy e
      obtain ⟨q, hq, rfl⟩ := List.mem_map.1 hy
      have := (List.mem_filter.1 hq).2
      rw [decide_eq_true_eq] at this
      exact this (e ▸ hx)
  · exact mem_joinDims a b

theorem joinDims_same (a b : List (Str × Nat)) (h : ∀ e ∈ b, e.1 ∈ a.map (·.1)) : joinDims a b = a := by
  unfold joinDims
  rw [List.filter_eq_nil_iff.2, List.append_nil]
  intro e he
  simpa using h e he

theorem inplace_ok (sz : Str → Nat) (f : FVal → FVal → FVal) {a b : SArr} (ha : OnGrid sz a) (hb : OnGrid sz b) (h : ∀ d ∈ b.names, d ∈ a.names) :
    ∃ r, SArr.inplace f a b = .ok r ∧ Joined sz f a b r := by
  obtain ⟨r, hr, hj⟩ := op_ok sz f ha hb
  refine ⟨r, ?_, hj⟩
  unfold SArr.inplace
  rw [hr]
  have hd : r.dims = a.dims := by
    have : r = ⟨joinDims a.dims b.dims, fun p => f (a.val p) (b.val p)⟩ := by
      unfold SArr.op at hr
      rw [if_pos (sameSizes_of sz ha hb)] at hr
      exact (Except.ok.inj hr).symm
    rw [this]
    exact joinDims_same _ _ fun e he => h e.1 (List.mem_map.2 ⟨e, he, rfl⟩)
  show (if r.dims = a.dims then _ else _) = _
  rw [if_pos hd]

theorem inplace_refused (sz : Str → Nat) (f : FVal → FVal → FVal) {a b : SArr} (ha : OnGrid sz a) (hb : OnGrid sz b) (d : Str) (hd : d ∈ b.names) (hd' : d ∉ a.names) :
    SArr.inplace f a b = .error .valueError := by
  obtain ⟨r, hr, hj⟩ := op_ok sz f ha hb
  unfold SArr.inplace
  rw [hr]
  show (if r.dims = a.dims then _ else _) = _
  rw [if_neg]
  intro e
  apply hd'
  have := (hj.names d).2 (Or.inr hd)
  unfold SArr.names at this ⊢
  rwa [e] at this

theorem OnGrid.map {sz : Str → Nat} {x : SArr} (h : OnGrid sz x) (f : FVal → FVal) : OnGrid sz (x.map f) := ⟨h.sized, h.nodup⟩

theorem map_names (x : SArr) (f : FVal → FVal) : (x.map f).names = x.names := rfl

/-- `r` is the array of `F` at each point, on the dimensions `D`: no other dimension, none of them twice, with the sizes of the grid -/
structure IsGrid (sz : Str → Nat) (D : Str → Prop) (F : (Str → Nat) → FVal) (r : SArr) : Prop where
  sizes : ∀ d ∈ r.dims, d.2 = sz d.1
  once : r.names.Nodup
  dims : ∀ d, d ∈ r.names ↔ D d
  values : ∀ p, r.val p = F p

/-- one of the arrays has the dimension -/
def HasDim (l : List SArr) (d : Str) : Prop := ∃ x ∈ l, d ∈ x.names

theorem hasDim_cons (x : SArr) (l : List SArr) (d : Str) : HasDim (x :: l) d ↔ d ∈ x.names ∨ HasDim l d := by
  unfold HasDim; simp

theorem hasDim_nil (d : Str) : HasDim [] d ↔ False := by unfold HasDim; simp

/-- the CF formulas at one point, where the values may be missing or not finite; a division by zero gives no finite value -/
noncomputable def atPoint3 (F : ℝ → ℝ → ℝ → ℝ) (x y z : FVal) : FVal := x.bind fun x => y.bind fun y => z.map fun z => F x y z

/-- **C213** (atmosphere): whatever the dimensions of the three arrays, `atmosphere_sigma_coordinate` gives the array of the CF formula at each point,
on all their dimensions. -/
theorem C213_atmosphere (sz : Str → Nat) (sig ps ptop : SArr) (hs : OnGrid sz sig) (hp : OnGrid sz ps) (ht : OnGrid sz ptop) :
    ∃ r, atmosphereSigmaA sig ps ptop = .ok r ∧
      IsGrid sz (HasDim [sig, ps, ptop]) (fun p => atPoint3 (fun s x t => cfAtmSigma t s x) (sig.val p) (ps.val p) (ptop.val p)) r := by
  obtain ⟨d, h1, j1⟩ := op_ok sz fSub hp ht
  obtain ⟨q, h2, j2⟩ := op_ok sz fMul hs j1.grid
  obtain ⟨r, h3, j3⟩ := inplace_ok sz fAdd j2.grid ht (fun d hd => (j2.names d).2 (Or.inr ((j1.names d).2 (Or.inr hd))))
  refine ⟨r, ?_, j3.grid.sized, j3.grid.nodup, ?_, ?_⟩
  · unfold atmosphereSigmaA; rw [h1]; show (SArr.op fMul sig d).bind _ = _; rw [h2]; exact h3
  · intro d'
    rw [j3.names, j2.names, j1.names]
    simp only [hasDim_cons, hasDim_nil]
    tauto
  · intro p
    rw [j3.val, j2.val, j1.val]
    unfold atPoint3 fAdd fMul fSub cfAtmSigma
    cases sig.val p <;> cases ps.val p <;> cases ptop.val p <;> simp [add_comm]

/-- **C213** (ocean sigma): the same for `ocean_sigma_coordinate`. -/
theorem C213_ocean_sigma (sz : Str → Nat) (sig ssh bathy : SArr) (hs : OnGrid sz sig) (he : OnGrid sz ssh) (hb : OnGrid sz bathy) :
    ∃ r, oceanSigmaA sig ssh bathy = .ok r ∧
      IsGrid sz (HasDim [sig, ssh, bathy]) (fun p => atPoint3 (fun s e b => cfOceanSigma e s b) (sig.val p) (ssh.val p) (bathy.val p)) r := by
  obtain ⟨d, h1, j1⟩ := op_ok sz fAdd hb he
  obtain ⟨q, h2, j2⟩ := op_ok sz fMul hs j1.grid
  obtain ⟨r, h3, j3⟩ := inplace_ok sz fAdd j2.grid he (fun d hd => (j2.names d).2 (Or.inr ((j1.names d).2 (Or.inr hd))))
  refine ⟨r, ?_, j3.grid.sized, j3.grid.nodup, ?_, ?_⟩
  · unfold oceanSigmaA; rw [h1]; show (SArr.op fMul sig d).bind _ = _; rw [h2]; exact h3
  · intro d'
    rw [j3.names, j2.names, j1.names]
    simp only [hasDim_cons, hasDim_nil]
    tauto
  · intro p
    rw [j3.val, j2.val, j1.val]
    unfold atPoint3 fAdd fMul cfOceanSigma
    cases sig.val p <;> cases ssh.val p <;> cases bathy.val p <;> simp [add_comm]

/-! ## stretching -/

/-- the stretching curve at one point; it needs values and a surface parameter other than zero -/
noncomputable def stretchAt (s a b : FVal) : FVal :=
  s.bind fun s => a.bind fun a => b.bind fun b => if a = 0 then none else some (cfStretching a b s)

theorem csFirst_ok (sz : Str → Nat) (s a b : SArr) (hs : OnGrid sz s) (ha : OnGrid sz a) (hb : OnGrid sz b) :
    ∃ r, csFirst s a b = .ok r ∧ OnGrid sz r ∧ (∀ d, d ∈ r.names ↔ d ∈ s.names ∨ d ∈ a.names ∨ d ∈ b.names) ∧
      ∀ p, r.val p = fDiv (fMul ((fMul (s.val p) (a.val p)).map Real.sinh) ((b.val p).map fun y => 1 - y)) ((a.val p).map Real.sinh) := by
  obtain ⟨sa, h1, j1⟩ := op_ok sz fMul hs ha
  obtain ⟨n, h2, j2⟩ := op_ok sz fMul (j1.grid.map fun x => x.map Real.sinh) (hb.map fun x => x.map fun y => 1 - y)
  obtain ⟨r, h3, j3⟩ := op_ok sz fDiv j2.grid (ha.map fun x => x.map Real.sinh)
  refine ⟨r, ?_, j3.grid, ?_, ?_⟩
  · unfold csFirst; rw [h1]; show (SArr.op fMul _ _).bind _ = _; rw [h2]; exact h3
  · intro d
    rw [j3.names, j2.names, map_names, map_names, map_names, j1.names]
    tauto
  · intro p
    rw [j3.val, j2.val]
    show fDiv (fMul ((sa.val p).map _) _) _ = _
    rw [j1.val]; rfl

theorem csSecond_ok (sz : Str → Nat) (s a b : SArr) (hs : OnGrid sz s) (ha : OnGrid sz a) (hb : OnGrid sz b) :
    ∃ r, csSecond s a b = .ok r ∧ OnGrid sz r ∧ (∀ d, d ∈ r.names ↔ d ∈ s.names ∨ d ∈ a.names ∨ d ∈ b.names) ∧
      ∀ p, r.val p = fMul (b.val p) ((fDiv ((fMul (a.val p) ((s.val p).map fun y => y + 1 / 2)).map Real.tanh)
        ((a.val p).map fun y => 2 * Real.tanh (1 / 2 * y))).map fun y => y - 1 / 2) := by
  obtain ⟨as, h1, j1⟩ := op_ok sz fMul ha (hs.map fun x => x.map fun y => y + 1 / 2)
  obtain ⟨q, h2, j2⟩ := op_ok sz fDiv (j1.grid.map fun x => x.map Real.tanh) (ha.map fun x => x.map fun y => 2 * Real.tanh (1 / 2 * y))
  obtain ⟨r, h3, j3⟩ := op_ok sz fMul hb (j2.grid.map fun x => x.map fun y => y - 1 / 2)
  refine ⟨r, ?_, j3.grid, ?_, ?_⟩
  · unfold csSecond; rw [h1]; show (SArr.op fDiv _ _).bind _ = _; rw [h2]; exact h3
  · intro d
    rw [j3.names, map_names, j2.names, map_names, map_names, j1.names, map_names]
    tauto
  · intro p
    rw [j3.val]
    show fMul _ ((q.val p).map _) = _
    rw [j2.val]
    show fMul _ ((fDiv ((as.val p).map _) _).map _) = _
    rw [j1.val]; rfl

theorem tanh_half_zero (a : ℝ) : 2 * Real.tanh (1 / 2 * a) = 0 ↔ a = 0 := by
  constructor
  · intro h
    by_contra ha
    exact tanh_half_ne a ha (by linarith)
  · rintro rfl; simp

theorem stretch_point (s a b : FVal) :
    fAdd (fDiv (fMul ((fMul s a).map Real.sinh) (b.map fun y => 1 - y)) (a.map Real.sinh))
      (fMul b ((fDiv ((fMul a (s.map fun y => y + 1 / 2)).map Real.tanh) (a.map fun y => 2 * Real.tanh (1 / 2 * y))).map fun y => y - 1 / 2)) = stretchAt s a b := by
  cases s with
  | none => cases a <;> cases b <;> simp [fAdd, fDiv, fMul, stretchAt]
  | some s => cases a with
    | none => cases b <;> simp [fAdd, fDiv, fMul, stretchAt]
    | some a => cases b with
      | none => simp [fAdd, fDiv, fMul, stretchAt]
      | some b =>
        by_cases ha : a = 0
        · subst ha; simp [fAdd, fDiv, fMul, stretchAt]
        · have h1 : Real.sinh a ≠ 0 := by rwa [Ne, Real.sinh_eq_zero]
          have h2 : ¬ 2 * Real.tanh (1 / 2 * a) = 0 := by rwa [tanh_half_zero]
          have h3 := getCs_cf s a b ha none
          have hg : getCs s a b none = some (Real.sinh (s * a) * (1 - b) / Real.sinh a + b * (Real.tanh (a * (s + 1 / 2)) / (2 * Real.tanh (1 / 2 * a)) - 1 / 2)) := by
            unfold getCs; rw [if_neg (by rintro (h | h); exacts [h1 h, h2 h])]
          rw [hg] at h3
          unfold fAdd fDiv fMul stretchAt
          simp only [Option.map_some, Option.bind_some, if_neg h1, if_neg h2, if_neg ha]
          exact h3

/-- **C213** (stretching curve): `get_cs` gives the array of the CF stretching function at each point, on all the dimensions of its arguments, which may all
be arrays. -/
theorem C213_get_cs (sz : Str → Nat) (s a b : SArr) (hs : OnGrid sz s) (ha : OnGrid sz a) (hb : OnGrid sz b) :
    ∃ r, getCsA s a b = .ok r ∧ IsGrid sz (HasDim [s, a, b]) (fun p => stretchAt (s.val p) (a.val p) (b.val p)) r := by
  obtain ⟨x, h1, g1, n1, v1⟩ := csFirst_ok sz s a b hs ha hb
  obtain ⟨y, h2, g2, n2, v2⟩ := csSecond_ok sz s a b hs ha hb
  obtain ⟨r, h3, j3⟩ := inplace_ok sz fAdd g1 g2 (fun d hd => (n1 d).2 ((n2 d).1 hd))
  refine ⟨r, ?_, j3.grid.sized, j3.grid.nodup, ?_, ?_⟩
  · unfold getCsA; rw [h1]; show (csSecond s a b).bind _ = _; rw [h2]; exact h3
  · intro d
    rw [j3.names, n1, n2]
    simp only [hasDim_cons, hasDim_nil]
    tauto
  · intro p
    rw [j3.val, v1, v2]
    exact stretch_point _ _ _

theorem IsGrid.onGrid {sz : Str → Nat} {D : Str → Prop} {F : (Str → Nat) → FVal} {r : SArr} (h : IsGrid sz D F r) : OnGrid sz r := ⟨h.sizes, h.once⟩

/-- the stretching that the arguments give: the array `cs` when it is there, else the curve of the two parameters -/
structure StretchArr (sz : Str → Nat) (sig : SArr) (a b cs : Option SArr) (C : (Str → Nat) → FVal) (D : Str → Prop) : Prop where
  given : ∀ c, cs = some c → OnGrid sz c ∧ (∀ p, C p = c.val p) ∧ ∀ d, D d ↔ d ∈ c.names
  computed : cs = none → ∃ a' b', a = some a' ∧ b = some b' ∧ OnGrid sz a' ∧ OnGrid sz b' ∧
    (∀ p, C p = stretchAt (sig.val p) (a'.val p) (b'.val p)) ∧ ∀ d, D d ↔ HasDim [sig, a', b'] d

/-- the CF formulas with five values, at one point -/
noncomputable def atPoint5 (F : ℝ → ℝ → ℝ → ℝ → ℝ → FVal) (s e b h c : FVal) : FVal :=
  s.bind fun s => e.bind fun e => b.bind fun b => h.bind fun h => c.bind fun c => F s e b h c

/-- **C213** (`ocean_s_coordinate`): when the stretching and the bathymetry have no other dimension than those of the vertical coordinate and of the critical depth,
`ocean_s_coordinate` gives the array of the CF formula at each point, with parameters that may be arrays. -/
theorem C213_ocean_s_partial (sz : Str → Nat) (sig ssh bathy hc a b : SArr) (cs : Option SArr) (hs : OnGrid sz sig) (he : OnGrid sz ssh)
    (hb : OnGrid sz bathy) (hh : OnGrid sz hc) (C : (Str → Nat) → FVal) (D : Str → Prop) (hC : StretchArr sz sig (some a) (some b) cs C D)
    (hd : ∀ d, D d ∨ d ∈ bathy.names → d ∈ sig.names ∨ d ∈ hc.names) :
    ∃ r, oceanSA sig ssh bathy hc a b cs = .ok r ∧ IsGrid sz (HasDim [sig, ssh, bathy, hc])
      (fun p => atPoint5 (fun s e b h c => some (cfOceanS e s h b c)) (sig.val p) (ssh.val p) (bathy.val p) (hc.val p) (C p)) r := by
  have hcs : ∃ c, (cs.elim (getCsA sig a b) Except.ok) = .ok c ∧ OnGrid sz c ∧ (∀ p, C p = c.val p) ∧ ∀ d, D d ↔ d ∈ c.names := by
    cases cs with
    | some c => exact ⟨c, rfl, hC.given c rfl⟩
    | none =>
      obtain ⟨a', b', e1, e2, ga, gb, hv, hD⟩ := hC.computed rfl
      cases e1; cases e2
      obtain ⟨r, hr, g⟩ := C213_get_cs sz sig a b hs ga gb
      exact ⟨r, hr, g.onGrid, fun p => by rw [hv, g.values], fun d => by rw [hD, g.dims]⟩
  obtain ⟨c, h0, gc, vc, nc⟩ := hcs
  obtain ⟨z0, h1, j1⟩ := op_ok sz fMul hs hh
  obtain ⟨bh, h2, j2⟩ := op_ok sz fSub hb hh
  obtain ⟨cbh, h3, j3⟩ := op_ok sz fMul gc j2.grid
  obtain ⟨zc, h4, j4⟩ := inplace_ok sz fAdd j1.grid j3.grid (by
    intro d h
    rw [j3.names, j2.names, ← nc] at h
    rw [j1.names]
    have := hd d
    tauto)
  obtain ⟨e, h5, j5⟩ := op_ok sz fMul (hs.map fun x => x.map fun y => y + 1) he
  obtain ⟨r, h6, j6⟩ := op_ok sz fAdd j5.grid j4.grid
  refine ⟨r, ?_, j6.grid.sized, j6.grid.nodup, ?_, ?_⟩
  · unfold oceanSA
    rw [h0]; show (SArr.op fMul sig hc).bind _ = _
    rw [h1]; show (SArr.op fSub bathy hc).bind _ = _
    rw [h2]; show (SArr.op fMul c bh).bind _ = _
    rw [h3]; show (SArr.inplace fAdd z0 cbh).bind _ = _
    rw [h4]; show (SArr.op fMul _ ssh).bind _ = _
    rw [h5]; exact h6
  · intro d
    rw [j6.names, j5.names, j4.names, j3.names, j2.names, j1.names, map_names, ← nc]
    simp only [hasDim_cons, hasDim_nil]
    have := hd d
    tauto
  · intro p
    rw [j6.val, j5.val, j4.val, j3.val, j2.val, j1.val, vc]
    show fAdd (fMul ((sig.val p).map _) _) _ = _
    unfold atPoint5 fAdd fMul fSub cfOceanS
    cases sig.val p <;> cases ssh.val p <;> cases bathy.val p <;> cases hc.val p <;> cases c.val p <;> simp
    ring

theorem size_one_ok (a b : SArr) (ha : a.size ≤ 1) (hb : b.size ≤ 1) : noneIn [some a, some b] = .ok false := by
  unfold noneIn
  rw [if_neg (by omega)]
  unfold noneIn
  rw [if_neg (by omega)]
  rfl

theorem csOptA_ok (sz : Str → Nat) (sig : SArr) (a b cs : Option SArr) (hs : OnGrid sz sig) (C : (Str → Nat) → FVal) (D : Str → Prop) (hC : StretchArr sz sig a b cs C D)
    (h1 : cs = none → (∀ x, a = some x → x.size ≤ 1) ∧ ∀ x, b = some x → x.size ≤ 1) :
    ∃ c, csOptA sig a b cs = .ok c ∧ OnGrid sz c ∧ (∀ p, C p = c.val p) ∧ ∀ d, D d ↔ d ∈ c.names := by
  cases cs with
  | some c => exact ⟨c, rfl, hC.given c rfl⟩
  | none =>
    obtain ⟨a', b', rfl, rfl, ga, gb, hv, hD⟩ := hC.computed rfl
    obtain ⟨r, hr, g⟩ := C213_get_cs sz sig a' b' hs ga gb
    refine ⟨r, ?_, g.onGrid, fun p => by rw [hv, g.values], fun d => by rw [hD, g.dims]⟩
    unfold csOptA
    rw [size_one_ok a' b' ((h1 rfl).1 a' rfl) ((h1 rfl).2 b' rfl)]
    exact hr

/-- **C213** (generic form 1): with a stretching array, or with two stretching parameters of one value each, `ocean_s_coordinate_g1` gives the array of the CF formula
at each point, on all the dimensions of its arguments. -/
theorem C213_ocean_s_g1_partial (sz : Str → Nat) (sig ssh bathy hc : SArr) (a b cs : Option SArr) (hs : OnGrid sz sig) (he : OnGrid sz ssh)
    (hb : OnGrid sz bathy) (hh : OnGrid sz hc) (C : (Str → Nat) → FVal) (D : Str → Prop) (hC : StretchArr sz sig a b cs C D)
    (h1 : cs = none → (∀ x, a = some x → x.size ≤ 1) ∧ ∀ x, b = some x → x.size ≤ 1) :
    ∃ r, oceanSG1A sig ssh bathy hc a b cs = .ok r ∧ IsGrid sz (fun d => HasDim [sig, ssh, bathy, hc] d ∨ D d)
      (fun p => atPoint5 (fun s e b h c => if b = 0 then none else some (cfOceanSG1 e s h b c)) (sig.val p) (ssh.val p) (bathy.val p) (hc.val p) (C p)) r := by
  obtain ⟨c, h0, gc, vc, nc⟩ := csOptA_ok sz sig a b cs hs C D hC h1
  obtain ⟨z0, e1, j1⟩ := op_ok sz fMul hs hh
  obtain ⟨bh, e2, j2⟩ := op_ok sz fSub hb hh
  obtain ⟨cbh, e3, j3⟩ := op_ok sz fMul gc j2.grid
  obtain ⟨s, e4, j4⟩ := op_ok sz fAdd j1.grid j3.grid
  obtain ⟨sh, e5, j5⟩ := op_ok sz fDiv j4.grid hb
  obtain ⟨e, e6, j6⟩ := op_ok sz fMul (j5.grid.map fun x => x.map fun y => y + 1) he
  obtain ⟨r, e7, j7⟩ := op_ok sz fAdd j4.grid j6.grid
  refine ⟨r, ?_, j7.grid.sized, j7.grid.nodup, ?_, ?_⟩
  · unfold oceanSG1A
    rw [h0]; show (SArr.op fMul sig hc).bind _ = _
    rw [e1]; show (SArr.op fSub bathy hc).bind _ = _
    rw [e2]; show (SArr.op fMul c bh).bind _ = _
    rw [e3]; show (SArr.op fAdd z0 cbh).bind _ = _
    rw [e4]; show (SArr.op fDiv s bathy).bind _ = _
    rw [e5]; show (SArr.op fMul _ ssh).bind _ = _
    rw [e6]; exact e7
  · intro d
    rw [j7.names, j6.names, map_names, j5.names, j4.names, j3.names, j2.names, j1.names, ← nc]
    simp only [hasDim_cons, hasDim_nil]
    tauto
  · intro p
    rw [j7.val, j6.val]
    show fAdd _ (fMul ((sh.val p).map _) _) = _
    rw [j5.val, j4.val, j3.val, j2.val, j1.val, vc]
    unfold atPoint5 fAdd fMul fSub fDiv cfOceanSG1
    cases sig.val p <;> cases ssh.val p <;> cases bathy.val p <;> cases hc.val p <;> cases c.val p <;> simp
    split
    · rfl
    · simp; ring

/-- **C213** (generic form 2): the same for `ocean_s_coordinate_g2`. -/
theorem C213_ocean_s_g2_partial (sz : Str → Nat) (sig ssh bathy hc : SArr) (a b cs : Option SArr) (hs : OnGrid sz sig) (he : OnGrid sz ssh)
    (hb : OnGrid sz bathy) (hh : OnGrid sz hc) (C : (Str → Nat) → FVal) (D : Str → Prop) (hC : StretchArr sz sig a b cs C D)
    (h1 : cs = none → (∀ x, a = some x → x.size ≤ 1) ∧ ∀ x, b = some x → x.size ≤ 1) :
    ∃ r, oceanSG2A sig ssh bathy hc a b cs = .ok r ∧ IsGrid sz (fun d => HasDim [sig, ssh, bathy, hc] d ∨ D d)
      (fun p => atPoint5 (fun s e b h c => if h + b = 0 then none else some (cfOceanSG2 e s h b c)) (sig.val p) (ssh.val p) (bathy.val p) (hc.val p) (C p)) r := by
  obtain ⟨c, h0, gc, vc, nc⟩ := csOptA_ok sz sig a b cs hs C D hC h1
  obtain ⟨z0, e1, j1⟩ := op_ok sz fMul hs hh
  obtain ⟨cb, e2, j2⟩ := op_ok sz fMul gc hb
  obtain ⟨s0, e3, j3⟩ := op_ok sz fAdd j1.grid j2.grid
  obtain ⟨hbb, e4, j4⟩ := op_ok sz fAdd hh hb
  obtain ⟨s, e5, j5⟩ := inplace_ok sz fDiv j3.grid j4.grid (by
    intro d h
    rw [j4.names] at h
    rw [j3.names, j1.names, j2.names]
    tauto)
  obtain ⟨hS, e6, j6⟩ := op_ok sz fMul j5.grid hb
  obtain ⟨e, e7, j7⟩ := op_ok sz fMul (j5.grid.map fun x => x.map fun y => y + 1) he
  obtain ⟨r, e8, j8⟩ := op_ok sz fAdd j6.grid j7.grid
  refine ⟨r, ?_, j8.grid.sized, j8.grid.nodup, ?_, ?_⟩
  · unfold oceanSG2A
    rw [h0]; show (SArr.op fMul sig hc).bind _ = _
    rw [e1]; show (SArr.op fMul c bathy).bind _ = _
    rw [e2]; show (SArr.op fAdd z0 cb).bind _ = _
    rw [e3]; show (SArr.op fAdd hc bathy).bind _ = _
    rw [e4]; show (SArr.inplace fDiv s0 hbb).bind _ = _
    rw [e5]; show (SArr.op fMul s bathy).bind _ = _
    rw [e6]; show (SArr.op fMul _ ssh).bind _ = _
    rw [e7]; exact e8
  · intro d
    rw [j8.names, j7.names, map_names, j6.names, j5.names, j4.names, j3.names, j2.names, j1.names, ← nc]
    simp only [hasDim_cons, hasDim_nil]
    tauto
  · intro p
    rw [j8.val, j7.val]
    show fAdd _ (fMul ((s.val p).map _) _) = _
    rw [j6.val, j5.val, j4.val, j3.val, j2.val, j1.val, vc]
    unfold atPoint5 fAdd fMul fDiv cfOceanSG2
    cases sig.val p <;> cases ssh.val p <;> cases bathy.val p <;> cases hc.val p <;> cases c.val p <;> simp
    rename_i s e b h c
    by_cases hz : h + b = 0
    · simp [hz]
    · simp only [hz, if_false, Option.map_some, Option.bind_some, Option.some.injEq]
      field_simp
      ring

/-- **C213 is violated** (stretching parameters that vary): a surface parameter with several values, e.g. one per point, makes the generic forms raise a `ValueError`, whatever the other
arguments, unless the stretching is given too; `get_cs` and `ocean_s_coordinate` accept it. The same holds for the bottom parameter. -/
theorem C213_varying_violated (sig ssh bathy hc a : SArr) (b : Option SArr) (ha : 1 < a.size) :
    oceanSG1A sig ssh bathy hc (some a) b none = .error .valueError ∧ oceanSG2A sig ssh bathy hc (some a) b none = .error .valueError ∧
    ∀ a', a'.size ≤ 1 → oceanSG1A sig ssh bathy hc (some a') (some a) none = .error .valueError ∧ oceanSG2A sig ssh bathy hc (some a') (some a) none = .error .valueError := by
  have h1 : noneIn [some a, b] = .error .valueError := by unfold noneIn; rw [if_pos ha]
  have k1 : csOptA sig (some a) b none = .error .valueError := by unfold csOptA; rw [h1]; rfl
  refine ⟨?_, ?_, fun a' ha' => ?_⟩
  · unfold oceanSG1A; rw [k1]; rfl
  · unfold oceanSG2A; rw [k1]; rfl
  · have h2 : noneIn [some a', some a] = .error .valueError := by
      unfold noneIn; rw [if_neg (by omega)]; unfold noneIn; rw [if_pos ha]
    have k2 : csOptA sig (some a') (some a) none = .error .valueError := by unfold csOptA; rw [h2]; rfl
    refine ⟨?_, ?_⟩
    · unfold oceanSG1A; rw [k2]; rfl
    · unfold oceanSG2A; rw [k2]; rfl

/-- **C213 is violated** (`ocean_s_coordinate`): when the bathymetry or the stretching has a dimension that neither the vertical coordinate nor the critical depth has, as
the bathymetry does in practice, `ocean_s_coordinate` raises a `ValueError`. -/
theorem C213_ocean_s_violated (sz : Str → Nat) (sig ssh bathy hc a b c : SArr) (hs : OnGrid sz sig) (hb : OnGrid sz bathy) (hh : OnGrid sz hc) (gc : OnGrid sz c)
    (d : Str) (hd : d ∈ bathy.names ∨ d ∈ c.names) (h1 : d ∉ sig.names) (h2 : d ∉ hc.names) :
    oceanSA sig ssh bathy hc a b (some c) = .error .valueError := by
  obtain ⟨z0, e1, j1⟩ := op_ok sz fMul hs hh
  obtain ⟨bh, e2, j2⟩ := op_ok sz fSub hb hh
  obtain ⟨cbh, e3, j3⟩ := op_ok sz fMul gc j2.grid
  have hr := inplace_refused sz fAdd j1.grid j3.grid d (by rw [j3.names, j2.names]; tauto) (by rw [j1.names]; tauto)
  unfold oceanSA
  show (SArr.op fMul sig hc).bind _ = _
  rw [e1]; show (SArr.op fSub bathy hc).bind _ = _
  rw [e2]; show (SArr.op fMul c bh).bind _ = _
  rw [e3]; show (SArr.inplace fAdd z0 cbh).bind _ = _
  rw [hr]; rfl

/-- **C213** (missing parameters): without the stretching and without one of its parameters, the generic forms raise `XoaSigmaError`. -/
theorem C213_missing (sig ssh bathy hc : SArr) (b : Option SArr) :
    oceanSG1A sig ssh bathy hc none b none = .error .sigmaError ∧ oceanSG2A sig ssh bathy hc none b none = .error .sigmaError ∧
    ∀ a, a.size ≤ 1 → oceanSG1A sig ssh bathy hc (some a) none none = .error .sigmaError ∧ oceanSG2A sig ssh bathy hc (some a) none none = .error .sigmaError := by
  have k1 : csOptA sig none b none = .error .sigmaError := rfl
  refine ⟨?_, ?_, fun a ha => ?_⟩
  · unfold oceanSG1A; rw [k1]; rfl
  · unfold oceanSG2A; rw [k1]; rfl
  · have h2 : noneIn [some a, none] = .ok true := by unfold noneIn; rw [if_neg (by omega)]; rfl
    have k2 : csOptA sig (some a) none none = .error .sigmaError := by unfold csOptA; rw [h2]; rfl
    refine ⟨?_, ?_⟩
    · unfold oceanSG1A; rw [k2]; rfl
    · unfold oceanSG2A; rw [k2]; rfl

/-- **C213** (sizes): arrays that disagree on the size of a dimension are refused. -/
theorem C213_sizes (sig ssh bathy : SArr) (d : Str) (m n : Nat) (h : m ≠ n) (hm : (d, m) ∈ bathy.dims) (hn : (d, n) ∈ ssh.dims) :
    oceanSigmaA sig ssh bathy = .error .valueError := by
  have hf : sameSizes bathy.dims ssh.dims = false := by
    rw [Bool.eq_false_iff]
    intro ht
    unfold sameSizes at ht
    have h1 := List.all_eq_true.1 ht _ hm
    have h2 := of_decide_eq_true (List.all_eq_true.1 h1 _ hn)
    rcases h2 with h2 | h2
    · exact h2 rfl
    · exact h h2
  unfold oceanSigmaA SArr.op
  rw [hf]; rfl

/-! ## a grid -/

/-- the sizes of a small grid -/
def exSz (d : Str) : Nat := if d = "s".toList then 3 else 2

/-- vertical coordinate, bathymetry, sea surface and critical depth -/
noncomputable def exSigA : SArr := ⟨[("s".toList, 3)], fun p => some (-1 + (p "s".toList : ℝ) / 2)⟩
noncomputable def exBathyA : SArr := ⟨[("y".toList, 2), ("x".toList, 2)], fun p => some (100 + p "x".toList)⟩
noncomputable def exSshA : SArr := ⟨[("t".toList, 2), ("x".toList, 2)], fun p => some (p "t".toList)⟩
noncomputable def exHcA : SArr := ⟨[], fun _ => some 10⟩
noncomputable def exThetaA : SArr := ⟨[], fun _ => some 6⟩
noncomputable def exThetaX : SArr := ⟨[("x".toList, 2)], fun _ => some 6⟩

theorem exA_grid : OnGrid exSz exSigA ∧ OnGrid exSz exBathyA ∧ OnGrid exSz exSshA ∧ OnGrid exSz exHcA ∧ OnGrid exSz exThetaA ∧ OnGrid exSz exThetaX := by
  refine ⟨⟨?_, ?_⟩, ⟨?_, ?_⟩, ⟨?_, ?_⟩, ⟨?_, ?_⟩, ⟨?_, ?_⟩, ⟨?_, ?_⟩⟩ <;>
    simp [exSigA, exBathyA, exSshA, exHcA, exThetaA, exThetaX, exSz, SArr.names]

example : ∃ r, oceanSG2A exSigA exSshA exBathyA exHcA none none (some exSigA) = .ok r ∧ r.names.Nodup ∧ "y".toList ∈ r.names ∧
    r.val (fun _ => 1) = some (cfOceanSG2 1 (-1 / 2) 10 101 (-1 / 2)) := by
  obtain ⟨h1, h2, h3, h4, -, -⟩ := exA_grid
  obtain ⟨r, hr, g⟩ := C213_ocean_s_g2_partial exSz exSigA exSshA exBathyA exHcA none none (some exSigA) h1 h3 h2 h4 exSigA.val (· ∈ exSigA.names)
    ⟨fun c e => by cases e; exact ⟨h1, fun _ => rfl, fun _ => Iff.rfl⟩, fun e => by cases e⟩ (fun e => by cases e)
  refine ⟨r, hr, g.once, (g.dims _).2 (Or.inl ⟨exBathyA, by simp, by simp [SArr.names, exBathyA]⟩), ?_⟩
  rw [g.values]
  simp only [atPoint5, exSigA, exSshA, exBathyA, exHcA, Option.bind_some]
  norm_num

/-- a column of constant depth with a varying sea surface, with computed stretching -/
example : ∃ r, oceanSA exSigA exSshA exHcA exHcA exThetaA exThetaA none = .ok r ∧ "t".toList ∈ r.names := by
  obtain ⟨h1, -, h3, h4, h5, -⟩ := exA_grid
  obtain ⟨r, hr, g⟩ := C213_ocean_s_partial exSz exSigA exSshA exHcA exHcA exThetaA exThetaA none h1 h3 h4 h4
    (fun p => stretchAt (exSigA.val p) (exThetaA.val p) (exThetaA.val p)) (HasDim [exSigA, exThetaA, exThetaA])
    ⟨fun c e => (by cases e), fun _ => ⟨exThetaA, exThetaA, rfl, rfl, h5, h5, fun _ => rfl, fun _ => Iff.rfl⟩⟩
    (by
      intro d hd
      simp only [hasDim_cons, hasDim_nil] at hd
      have : exThetaA.names = [] ∧ exHcA.names = [] := ⟨rfl, rfl⟩
      rw [this.1, this.2] at hd
      simp only [List.not_mem_nil, or_false] at hd
      exact Or.inl hd)
  exact ⟨r, hr, (g.dims _).2 ⟨exSshA, by simp, by simp [SArr.names, exSshA]⟩⟩

example : 1 < exThetaX.size ∧ exThetaA.size ≤ 1 := by decide

end Xoa
