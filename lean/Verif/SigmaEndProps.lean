import Verif.SigmaEnd
import Verif.SigmaTermsProps
import Verif.MiscFilterProps

/-! # C214: decode_cf_sigma from one end to the other -/

namespace Xoa

/-- the result of the formula when there is one -/
noncomputable def formulaH (arrs : List (Str × SArr)) (type : Str) (kwargs : List (Str × Str)) : HArr FVal :=
  match sigmaFormula type (sigmaArrays arrs kwargs) with
  | .ok r => r.toH
  | .error _ => ⟨[], [], fun _ => none⟩

theorem decodeLocV_eq (sg : SG) (vcat ccat : CfCat) (arrs : List (Str × SArr)) (ds : SDs FVal) (p : Option Str × List (Str × Str)) (r : SArr)
    (hc : sigmaCall (typeOf p.2) (sigmaKwargs p.2) = .ok ()) (hr : sigmaFormula (typeOf p.2) (sigmaArrays arrs (sigmaKwargs p.2)) = .ok r) :
    decodeLocV sg vcat ccat arrs ds p = decodeLoc sg vcat ccat (formulaH arrs) ds p := by
  have hf : formulaH arrs (typeOf p.2) (sigmaKwargs p.2) = r.toH := by unfold formulaH; rw [hr]
  unfold typeOf at hc hr hf
  unfold decodeLocV
  rw [hc, hr]
  show decodeLoc sg vcat ccat (fun _ _ => r.toH) ds p = _
  unfold decodeLoc
  dsimp only
  rw [hc]
  dsimp only [Except.bind]
  rw [hf]

theorem decodeLocsV_eq (sg : SG) (vcat ccat : CfCat) (arrs : List (Str × SArr)) (ps : List (Option Str × List (Str × Str)))
    (hc : ∀ p ∈ ps, sigmaCall (typeOf p.2) (sigmaKwargs p.2) = .ok ()) (hr : ∀ p ∈ ps, ∃ r, sigmaFormula (typeOf p.2) (sigmaArrays arrs (sigmaKwargs p.2)) = .ok r) :
    ∀ ds, decodeLocsV sg vcat ccat arrs ds ps = decodeLocs sg vcat ccat (formulaH arrs) ds ps := by
  induction ps with
  | nil => intro ds; rfl
  | cons p ps ih =>
    intro ds
    obtain ⟨r, h⟩ := hr p List.mem_cons_self
    unfold decodeLocsV decodeLocs
    rw [decodeLocV_eq sg vcat ccat arrs ds p r (hc p List.mem_cons_self) h]
    congr 1
    funext ds'
    exact ih (fun q hq => hc q (List.mem_cons_of_mem _ hq)) (fun q hq => hr q (List.mem_cons_of_mem _ hq)) ds'

/-- the five terms of a sigma variable with the generic form 2: the variable itself, the stretching, the sea surface height, the bathymetry and the critical depth -/
structure G2Terms where
  s : Str
  c : Str
  eta : Str
  depth : Str
  hc : Str

def G2Terms.all (t : G2Terms) : List Str := [t.s, t.c, t.eta, t.depth, t.hc]

/-- the attribute `formula_terms` has these terms, as in the CF conventions -/
def G2Terms.decoded (t : G2Terms) (attr : Str) : Prop :=
  decodeFormulaTerms attr = some [("s".toList, t.s), ("C".toList, t.c), ("eta".toList, t.eta), ("depth".toList, t.depth), ("depth_c".toList, t.hc)]

/-- the sigma variable has the generic form 2 at a location, with these terms, which are data variables of the dataset -/
structure IsG2 (arrs : List (Str × SArr)) (s : SigFound) (t : G2Terms) : Prop where
  name : s.name = t.s
  std : ∃ sn, s.standardName = some sn ∧ (parseAttr {} .standardName sn).1 = "ocean_s_coordinate_g2".toList
  terms : ∃ attr, s.formulaTerms = some attr ∧ t.decoded attr
  vars : ∀ v ∈ t.all, v ∈ arrs.map (·.1) ∧ (∀ x ∈ arrs.map (·.1), lower x = lower v → x = v) ∧ v ≠ "type".toList
  nodup : t.all.Nodup

theorem g2_terms (arrs : List (Str × SArr)) (s : SigFound) (t : G2Terms) (h : IsG2 arrs s t) :
    ∃ f, s.terms {} (arrs.map (·.1)) = .ok f ∧ typeOf f = "ocean_s_coordinate_g2".toList ∧
      sigmaKwargs f = [("sig".toList, t.s), ("cs".toList, t.c), ("ssh".toList, t.eta), ("bathy".toList, t.depth), ("hc".toList, t.hc)] := by
  obtain ⟨sn, h1, h2⟩ := h.std
  obtain ⟨attr, h3, h4⟩ := h.terms
  have k := C33_g2_partial (arrs.map fun x : Str × SArr => x.1) t.s t.c t.eta t.depth t.hc attr .raise h4 h.vars h.nodup
  have e : s.terms {} (arrs.map (·.1)) = getSigmaTerms (arrs.map (·.1)) ⟨t.s, some "ocean_s_coordinate_g2".toList, some attr⟩ := by
    unfold SigFound.terms
    rw [h1, h3, h.name, Option.map_some, h2]
  unfold decodeCfSigma at k
  rw [e]
  cases hg : getSigmaTerms (arrs.map (·.1)) ⟨t.s, some "ocean_s_coordinate_g2".toList, some attr⟩ with
  | error er =>
    rw [hg] at k
    cases er with
    | sigmaError => dsimp only at k; rw [if_pos rfl] at k; cases k
    | attributeError => cases k
  | ok f =>
    rw [hg] at k
    dsimp only at k
    have := SigOutcome.called.inj k
    exact ⟨f, rfl, this.1, this.2⟩

/-- the array of the dataset of this name -/
def arrOf (arrs : List (Str × SArr)) (v : Str) : SArr := (lookupS v arrs).getD ⟨[], fun _ => none⟩

theorem lookupS_arrOf (arrs : List (Str × SArr)) (v : Str) (h : v ∈ arrs.map (·.1)) : lookupS v arrs = some (arrOf arrs v) := by
  cases hl : lookupS v arrs with
  | some x => unfold arrOf; rw [hl]; rfl
  | none =>
    exfalso
    induction arrs with
    | nil => cases h
    | cons a arrs ih =>
      unfold lookupS at hl
      split at hl
      · cases hl
      · rename_i hne
        rcases List.mem_cons.1 h with h' | h'
        · exact hne h'
        · exact ih h' hl

theorem kw_sig (a b c d e : Str) : lookupS "sig".toList [("sig".toList, a), ("cs".toList, b), ("ssh".toList, c), ("bathy".toList, d), ("hc".toList, e)] = some a := rfl
theorem kw_cs (a b c d e : Str) : lookupS "cs".toList [("sig".toList, a), ("cs".toList, b), ("ssh".toList, c), ("bathy".toList, d), ("hc".toList, e)] = some b := rfl
theorem kw_ssh (a b c d e : Str) : lookupS "ssh".toList [("sig".toList, a), ("cs".toList, b), ("ssh".toList, c), ("bathy".toList, d), ("hc".toList, e)] = some c := rfl
theorem kw_bathy (a b c d e : Str) : lookupS "bathy".toList [("sig".toList, a), ("cs".toList, b), ("ssh".toList, c), ("bathy".toList, d), ("hc".toList, e)] = some d := rfl
theorem kw_hc (a b c d e : Str) : lookupS "hc".toList [("sig".toList, a), ("cs".toList, b), ("ssh".toList, c), ("bathy".toList, d), ("hc".toList, e)] = some e := rfl

theorem g2_formula (arrs : List (Str × SArr)) (t : G2Terms) (hv : ∀ v ∈ t.all, v ∈ arrs.map (·.1)) :
    sigmaFormula "ocean_s_coordinate_g2".toList (sigmaArrays arrs [("sig".toList, t.s), ("cs".toList, t.c), ("ssh".toList, t.eta), ("bathy".toList, t.depth), ("hc".toList, t.hc)]) =
      (oceanSG2A (arrOf arrs t.s) (arrOf arrs t.eta) (arrOf arrs t.depth) (arrOf arrs t.hc)
        (sigmaArrays arrs [("sig".toList, t.s), ("cs".toList, t.c), ("ssh".toList, t.eta), ("bathy".toList, t.depth), ("hc".toList, t.hc)] "thetas".toList)
        (sigmaArrays arrs [("sig".toList, t.s), ("cs".toList, t.c), ("ssh".toList, t.eta), ("bathy".toList, t.depth), ("hc".toList, t.hc)] "thetab".toList)
        (some (arrOf arrs t.c))).mapError SAErr.toDec := by
  have hs := lookupS_arrOf arrs t.s (hv t.s (by simp [G2Terms.all]))
  have hc := lookupS_arrOf arrs t.c (hv t.c (by simp [G2Terms.all]))
  have he := lookupS_arrOf arrs t.eta (hv t.eta (by simp [G2Terms.all]))
  have hd := lookupS_arrOf arrs t.depth (hv t.depth (by simp [G2Terms.all]))
  have hh := lookupS_arrOf arrs t.hc (hv t.hc (by simp [G2Terms.all]))
  have n1 : needArr (sigmaArrays arrs [("sig".toList, t.s), ("cs".toList, t.c), ("ssh".toList, t.eta), ("bathy".toList, t.depth), ("hc".toList, t.hc)]) "sig".toList = .ok (arrOf arrs t.s) := by
    unfold needArr sigmaArrays; rw [kw_sig, Option.bind_some, hs]
  have n2 : needArr (sigmaArrays arrs [("sig".toList, t.s), ("cs".toList, t.c), ("ssh".toList, t.eta), ("bathy".toList, t.depth), ("hc".toList, t.hc)]) "ssh".toList = .ok (arrOf arrs t.eta) := by
    unfold needArr sigmaArrays; rw [kw_ssh, Option.bind_some, he]
  have n3 : needArr (sigmaArrays arrs [("sig".toList, t.s), ("cs".toList, t.c), ("ssh".toList, t.eta), ("bathy".toList, t.depth), ("hc".toList, t.hc)]) "bathy".toList = .ok (arrOf arrs t.depth) := by
    unfold needArr sigmaArrays; rw [kw_bathy, Option.bind_some, hd]
  have n4 : needArr (sigmaArrays arrs [("sig".toList, t.s), ("cs".toList, t.c), ("ssh".toList, t.eta), ("bathy".toList, t.depth), ("hc".toList, t.hc)]) "hc".toList = .ok (arrOf arrs t.hc) := by
    unfold needArr sigmaArrays; rw [kw_hc, Option.bind_some, hh]
  have n5 : sigmaArrays arrs [("sig".toList, t.s), ("cs".toList, t.c), ("ssh".toList, t.eta), ("bathy".toList, t.depth), ("hc".toList, t.hc)] "cs".toList = some (arrOf arrs t.c) := by
    unfold sigmaArrays; rw [kw_cs, Option.bind_some, hc]
  generalize sigmaArrays arrs [("sig".toList, t.s), ("cs".toList, t.c), ("ssh".toList, t.eta), ("bathy".toList, t.depth), ("hc".toList, t.hc)] = arg at *
  unfold sigmaFormula
  rw [n1, n2, n3, n4, n5]
  dsimp only [Except.bind]
  rw [if_neg (by decide), if_neg (by decide), if_neg (by decide), if_neg (by decide)]

/-- the height that the CF conventions define at a point, from the arrays of the dataset -/
noncomputable def heightAt (arrs : List (Str × SArr)) (t : G2Terms) (p : Str → Nat) : FVal :=
  atPoint5 (fun s e b h c => if h + b = 0 then none else some (cfOceanSG2 e s h b c))
    ((arrOf arrs t.s).val p) ((arrOf arrs t.eta).val p) ((arrOf arrs t.depth).val p) ((arrOf arrs t.hc).val p) ((arrOf arrs t.c).val p)

/-- one of the five arrays has the dimension -/
def G2Terms.hasDim (arrs : List (Str × SArr)) (t : G2Terms) (d : Str) : Prop := ∃ v ∈ t.all, d ∈ (arrOf arrs v).names

/-- the labels of the heights: `depth` with the location if any, standard name, long name and units -/
def heightLabel (loc : Option Str) : Str := "depth".toList ++ locSuffix loc

/-- the coordinate that is expected for a sigma variable: the height at each point, on all the dimensions of the five arrays, once each, in the order of the first data variable that has them all; with the
standard name, long name and units of a depth at this location -/
structure IsHeight (arrs : List (Str × SArr)) (t : G2Terms) (loc : Option Str) (out : HArr FVal) : Prop where
  values : ∀ p, out.val p = heightAt arrs t p
  dims : ∀ d, d ∈ out.dims ↔ t.hasDim arrs d
  attrs : out.attrs = depthAttrs (stdAt "ocean_layer_depth".toList loc) (longAt "Depth".toList loc)
  order : ∀ pre v post, arrs = pre ++ v :: post → (∀ d, t.hasDim arrs d → d ∈ v.2.names) → (∀ w ∈ pre, ∃ d, t.hasDim arrs d ∧ d ∉ w.2.names) → out.dims.Sublist v.2.names

theorem g2_height (sz : Str → Nat) (arrs : List (Str × SArr)) (hg : ∀ a ∈ arrs, OnGrid sz a.2) (s : SigFound) (t : G2Terms) (h : IsG2 arrs s t) :
    ∃ r, sigmaFormula "ocean_s_coordinate_g2".toList (sigmaArrays arrs [("sig".toList, t.s), ("cs".toList, t.c), ("ssh".toList, t.eta), ("bathy".toList, t.depth), ("hc".toList, t.hc)]) = .ok r ∧
      IsGrid sz (t.hasDim arrs) (heightAt arrs t) r := by
  have hv : ∀ v ∈ t.all, v ∈ arrs.map (·.1) := fun v hv => (h.vars v hv).1
  have og : ∀ v ∈ t.all, OnGrid sz (arrOf arrs v) := by
    intro v hv'
    exact hg (v, arrOf arrs v) (mem_of_lookupS v _ arrs (lookupS_arrOf arrs v (hv v hv')))
  have gs := og t.s (by simp [G2Terms.all])
  have gc := og t.c (by simp [G2Terms.all])
  have ge := og t.eta (by simp [G2Terms.all])
  have gd := og t.depth (by simp [G2Terms.all])
  have gh := og t.hc (by simp [G2Terms.all])
  rw [g2_formula arrs t hv]
  generalize sigmaArrays arrs _ "thetas".toList = a
  generalize sigmaArrays arrs _ "thetab".toList = b
  obtain ⟨r, hr, g⟩ := C213_ocean_s_g2_partial sz (arrOf arrs t.s) (arrOf arrs t.eta) (arrOf arrs t.depth) (arrOf arrs t.hc) a b (some (arrOf arrs t.c)) gs ge gd gh
    (arrOf arrs t.c).val (· ∈ (arrOf arrs t.c).names) ⟨fun c e => by cases e; exact ⟨gc, fun _ => rfl, fun _ => Iff.rfl⟩, fun e => by cases e⟩ (fun e => by cases e)
  refine ⟨r, by rw [hr]; rfl, g.sizes, g.once, ?_, g.values⟩
  intro d
  rw [g.dims]
  unfold G2Terms.hasDim G2Terms.all
  simp only [hasDim_cons, hasDim_nil, List.mem_cons, List.not_mem_nil, or_false, exists_eq_or_imp, exists_eq_left]
  tauto

/-- **C214**: for a dataset on a grid whose sigma variables, at different locations, have the generic form 2 with their terms among the data variables, and which has no variable named as a
depth, `decode_cf_sigma` adds exactly one coordinate per sigma variable, in order: the depth of each point by the CF formula, from the values of the variables of the dataset. The data variables and the other coordinates are unchanged. -/
theorem C214_decoded (sz : Str → Nat) (arrs : List (Str × SArr)) (coords : List (Str × HArr FVal)) (hg : ∀ a ∈ arrs, OnGrid sz a.2) (sigs : List SigFound) (rename : Bool)
    (errors : ErrMode) (t : SigFound → G2Terms) (ht : ∀ s ∈ sigs, IsG2 arrs s (t s)) (hloc : (sigs.map (SigFound.loc {})).Nodup)
    (hnew : ∀ s ∈ sigs, heightLabel (s.loc {}) ∉ arrs.map (·.1) ∧ lookupS (heightLabel (s.loc {})) coords = none) :
    ∃ ds', decodeDsV {} loadedVars loadedCoords arrs coords sigs rename errors = .ok ds' ∧ ds'.vars = arrs.map (fun a => (a.1, a.2.names)) ∧
      ds'.coords.map (·.1) = coords.map (·.1) ++ sigs.map (fun s => heightLabel (s.loc {})) ∧
      (∀ n, n ∉ sigs.map (fun s => heightLabel (s.loc {})) → lookupS n ds'.coords = lookupS n coords) ∧
      ∀ s ∈ sigs, ∃ out, lookupS (heightLabel (s.loc {})) ds'.coords = some out ∧ IsHeight arrs (t s) (s.loc {}) out := by
  have hvars : (arrs.map fun a => (a.1, a.2.names)).map (·.1) = arrs.map (·.1) := by rw [List.map_map]; rfl
  let f : SigFound → List (Str × Str) := fun s => ((s.terms {} (arrs.map (·.1))).toOption).getD []
  have hf : ∀ s ∈ sigs, s.terms {} (arrs.map (·.1)) = .ok (f s) ∧ typeOf (f s) = "ocean_s_coordinate_g2".toList ∧
      sigmaKwargs (f s) = [("sig".toList, (t s).s), ("cs".toList, (t s).c), ("ssh".toList, (t s).eta), ("bathy".toList, (t s).depth), ("hc".toList, (t s).hc)] := by
    intro s hs
    obtain ⟨g, h1, h2, h3⟩ := g2_terms arrs s (t s) (ht s hs)
    have : f s = g := by show ((s.terms {} (arrs.map (·.1))).toOption).getD [] = g; rw [h1]; rfl
    rw [this]; exact ⟨h1, h2, h3⟩
  have hcall : ∀ s ∈ sigs, sigmaCall (typeOf (f s)) (sigmaKwargs (f s)) = .ok () := by
    intro s hs
    rw [(hf s hs).2.1, (hf s hs).2.2]
    rw [((C198_arguments _).2.2.2 _ (Or.inr rfl))]
    unfold Given Only
    refine ⟨?_, ?_, Or.inl ?_⟩ <;> simp
  have hbh : ∀ s ∈ sigs, builtinHeight (typeOf (f s)) (s.loc {}) = heightLabel (s.loc {}) := by
    intro s hs
    unfold builtinHeight heightLabel
    rw [(hf s hs).2.1, if_neg (by decide)]
  have hba : ∀ s ∈ sigs, builtinHeightAttrs (typeOf (f s)) (s.loc {}) = depthAttrs (stdAt "ocean_layer_depth".toList (s.loc {})) (longAt "Depth".toList (s.loc {})) := by
    intro s hs
    unfold builtinHeightAttrs
    rw [(hf s hs).2.1, if_neg (by decide)]
  have hmap : sigs.map (fun s => builtinHeight (typeOf (f s)) (s.loc {})) = sigs.map (fun s => heightLabel (s.loc {})) := List.map_congr_left hbh
  obtain ⟨ds', h1, h2, h3, h4, h5⟩ := C198_builtin (formulaH arrs) ⟨arrs.map fun a => (a.1, a.2.names), coords⟩ sigs rename errors f
    (by intro s hs; rw [hvars]; exact (hf s hs).1) hloc hcall (by intro s hs; rw [hvars, hbh s hs]; exact hnew s hs)
  rw [hmap] at h3 h4
  refine ⟨ds', ?_, h2, h3, h4, ?_⟩
  · rw [← h1]
    unfold decodeDsV decodeDs
    rw [hvars]
    have hloc' := C197_locations {} (arrs.map (·.1)) rename sigs f (fun s hs => (hf s hs).1) hloc
    rw [hloc']
    dsimp only
    apply decodeLocsV_eq
    · intro p hp
      obtain ⟨s, hs, rfl⟩ := List.mem_map.1 hp
      exact hcall s hs
    · intro p hp
      obtain ⟨s, hs, rfl⟩ := List.mem_map.1 hp
      obtain ⟨r, hr, -⟩ := g2_height sz arrs hg s (t s) (ht s hs)
      exact ⟨r, by rw [(hf s hs).2.1, (hf s hs).2.2]; exact hr⟩
  · intro s hs
    obtain ⟨out, k1, k2⟩ := h5 s hs
    obtain ⟨r, hr, g⟩ := g2_height sz arrs hg s (t s) (ht s hs)
    have hfh : formulaH arrs (typeOf (f s)) (sigmaKwargs (f s)) = r.toH := by
      unfold formulaH; rw [(hf s hs).2.1, (hf s hs).2.2, hr]
    rw [hfh] at k2
    rw [hbh s hs] at k1
    refine ⟨out, k1, ⟨?_, ?_, ?_, ?_⟩⟩
    · intro p
      rw [k2.val]
      exact g.values p
    · intro d
      rw [k2.dims]
      exact g.dims d
    · rw [k2.attrs, hba s hs]
    · intro pre v post e hd hw
      refine k2.order (pre.map fun a => (a.1, a.2.names)) (v.1, v.2.names) (post.map fun a => (a.1, a.2.names)) (by rw [e]; simp) ?_ ?_
      · intro d h
        exact hd d ((g.dims d).1 h)
      · intro w h
        obtain ⟨w', hw', rfl⟩ := List.mem_map.1 h
        obtain ⟨d, h1, h2⟩ := hw w' hw'
        exact ⟨d, (g.dims d).2 h1, h2⟩

/-! ## a dataset -/

/-- a ROMS dataset with one location, and its sigma variables -/
noncomputable def exRoms : List (Str × SArr) :=
  [("temp".toList, ⟨[("t".toList, 2), ("s".toList, 3), ("y".toList, 2), ("x".toList, 2)], fun _ => some 10⟩), ("sc_r".toList, exSigA), ("Cs_r".toList, exSigA), ("zeta".toList, exSshA),
    ("h".toList, exBathyA), ("hc".toList, exHcA)]

def exRomsSig : SigFound := ⟨"sc_r".toList, some "ocean_s_coordinate_g2_at_rho_location".toList, some "s: sc_r C: Cs_r eta: zeta depth: h depth_c: hc".toList⟩

def exRomsTerms : G2Terms := ⟨"sc_r".toList, "Cs_r".toList, "zeta".toList, "h".toList, "hc".toList⟩

theorem exRoms_names : exRoms.map (fun x : Str × SArr => x.1) = ["temp".toList, "sc_r".toList, "Cs_r".toList, "zeta".toList, "h".toList, "hc".toList] := rfl

theorem exRoms_grid : ∀ a ∈ exRoms, OnGrid exSz a.2 := by
  obtain ⟨h1, h2, h3, h4, -, -⟩ := exA_grid
  intro a ha
  simp only [exRoms, List.mem_cons, List.not_mem_nil, or_false] at ha
  rcases ha with rfl | rfl | rfl | rfl | rfl | rfl
  · refine ⟨?_, ?_⟩
    · simp [exSz]
    · simp [SArr.names]
  · exact h1
  · exact h1
  · exact h3
  · exact h2
  · exact h4

theorem exRoms_g2 : IsG2 exRoms exRomsSig exRomsTerms := by
  refine ⟨rfl, ⟨_, rfl, by decide +kernel⟩, ⟨_, rfl, ?_⟩, ?_, by decide +kernel⟩
  · show _ = _; decide +kernel
  · rw [exRoms_names]; decide +kernel

/-- the hypotheses hold: `depth_rho` is added, and its value at the second point of each dimension is the formula -/
example : ∃ ds' out, decodeDsV {} loadedVars loadedCoords exRoms [] [exRomsSig] false .raise = .ok ds' ∧ ds'.coords.map (·.1) = ["depth_rho".toList] ∧
    lookupS "depth_rho".toList ds'.coords = some out ∧ out.val (fun _ => 1) = some (cfOceanSG2 1 (-1 / 2) 10 101 (-1 / 2)) ∧ out.dims.Sublist ["t".toList, "s".toList, "y".toList, "x".toList] := by
  have hl : exRomsSig.loc {} = some "rho".toList := by decide +kernel
  have hn : heightLabel (exRomsSig.loc {}) = "depth_rho".toList := by rw [hl]; decide
  obtain ⟨ds', h1, -, h3, -, h5⟩ := C214_decoded exSz exRoms [] exRoms_grid [exRomsSig] false .raise (fun _ => exRomsTerms)
    (by intro s hs; rw [List.mem_singleton] at hs; subst hs; exact exRoms_g2) (by simp)
    (by intro s hs; rw [List.mem_singleton] at hs; subst hs; rw [hn, exRoms_names]; exact ⟨by decide, rfl⟩)
  obtain ⟨out, k1, k2⟩ := h5 exRomsSig (by simp)
  refine ⟨ds', out, h1, by rw [h3]; show [heightLabel _] = _; rw [hn], by rw [← hn]; exact k1, ?_, ?_⟩
  · rw [k2.values]
    simp only [heightAt, exRomsTerms, arrOf, exRoms]
    show atPoint5 _ (exSigA.val _) (exSshA.val _) (exBathyA.val _) (exHcA.val _) (exSigA.val _) = _
    simp only [atPoint5, exSigA, exSshA, exBathyA, exHcA, Option.bind_some]
    norm_num
  · refine k2.order [] _ _ rfl ?_ (by simp)
    rintro d ⟨v, hv, hd⟩
    simp only [exRomsTerms, G2Terms.all, List.mem_cons, List.not_mem_nil, or_false] at hv
    rcases hv with rfl | rfl | rfl | rfl | rfl
    · have e : (arrOf exRoms "sc_r".toList).names = ["s".toList] := rfl
      rw [e] at hd; simp only [List.mem_singleton] at hd; subst hd; decide
    · have e : (arrOf exRoms "Cs_r".toList).names = ["s".toList] := rfl
      rw [e] at hd; simp only [List.mem_singleton] at hd; subst hd; decide
    · have e : (arrOf exRoms "zeta".toList).names = ["t".toList, "x".toList] := rfl
      rw [e] at hd; simp only [List.mem_cons, List.not_mem_nil, or_false] at hd; rcases hd with rfl | rfl <;> decide
    · have e : (arrOf exRoms "h".toList).names = ["y".toList, "x".toList] := rfl
      rw [e] at hd; simp only [List.mem_cons, List.not_mem_nil, or_false] at hd; rcases hd with rfl | rfl <;> decide
    · have e : (arrOf exRoms "hc".toList).names = [] := rfl
      rw [e] at hd; cases hd

end Xoa
