import Verif.SigmaDecode
import Verif.CfBuiltinProps
import Verif.SGLocProps
import Verif.CfFormatMoreProps

/-!
# C197 and C198: sigma variables and heights of a dataset
-/

namespace Xoa

/-! ## C197: terms of all the sigma variables -/

theorem setLoc_new (k : Option Str) (v : List (Str × Str)) (acc : List (Option Str × List (Str × Str))) (h : k ∉ acc.map (·.1)) : setLoc k v acc = acc ++ [(k, v)] := by
  induction acc with
  | nil => rfl
  | cons p acc ih =>
    obtain ⟨k', v'⟩ := p
    rw [List.map_cons, List.mem_cons, not_or] at h
    show (if k = k' then (k, v) :: acc else (k', v') :: setLoc k v acc) = _
    rw [if_neg h.1, ih h.2]; rfl

theorem setLoc_keys (k : Option Str) (v : List (Str × Str)) (acc : List (Option Str × List (Str × Str))) (k' : Option Str) :
    k' ∈ (setLoc k v acc).map (·.1) ↔ k' = k ∨ k' ∈ acc.map (·.1) := by
  induction acc with
  | nil => simp [setLoc]
  | cons p acc ih =>
    obtain ⟨k0, v0⟩ := p
    show k' ∈ (if k = k0 then (k, v) :: acc else (k0, v0) :: setLoc k v acc).map (·.1) ↔ _
    by_cases h : k = k0
    · rw [if_pos h]; subst h; simp
    · rw [if_neg h]
      simp only [List.map_cons, List.mem_cons, ih]
      tauto

/-- the value of a key -/
def atLoc (k : Option Str) : List (Option Str × List (Str × Str)) → Option (List (Str × Str))
  | [] => none
  | (k', v) :: r => if k = k' then some v else atLoc k r

theorem atLoc_setLoc (k k' : Option Str) (v : List (Str × Str)) (acc : List (Option Str × List (Str × Str))) :
    atLoc k' (setLoc k v acc) = if k' = k then some v else atLoc k' acc := by
  induction acc with
  | nil =>
    show (if k' = k then some v else none) = _
    rfl
  | cons p acc ih =>
    obtain ⟨k0, v0⟩ := p
    show atLoc k' (if k = k0 then (k, v) :: acc else (k0, v0) :: setLoc k v acc) = _
    by_cases h : k = k0
    · rw [if_pos h]; subst h
      show (if k' = k then some v else atLoc k' acc) = if k' = k then some v else (if k' = k then some v0 else atLoc k' acc)
      by_cases h' : k' = k
      · rw [if_pos h', if_pos h']
      · rw [if_neg h', if_neg h', if_neg h']
    · rw [if_neg h]
      show (if k' = k0 then some v0 else atLoc k' (setLoc k v acc)) = if k' = k then some v else (if k' = k0 then some v0 else atLoc k' acc)
      rw [ih]
      by_cases h' : k' = k0
      · rw [if_pos h', if_pos h', if_neg (fun e => h (e.symm.trans h'))]
      · rw [if_neg h', if_neg h']

/-- the location of a sigma variable: that of its standard name -/
def SigFound.loc (sg : SG) (s : SigFound) : Option Str := s.standardName.bind fun sn => (parseAttr sg .standardName sn).2

/-- the terms of a sigma variable, alone: those of C33 for its standard name without location -/
def SigFound.terms (sg : SG) (dataVars : List Str) (s : SigFound) : Except STErr (List (Str × Str)) :=
  getSigmaTerms dataVars ⟨s.name, s.standardName.map fun sn => (parseAttr sg .standardName sn).1, s.formulaTerms⟩

theorem sigLocTerms_eq (sg : SG) (dataVars : List Str) (s : SigFound) :
    sigLocTerms sg dataVars s = (s.terms sg dataVars).map fun t => (s.loc sg, t) := by
  unfold sigLocTerms SigFound.terms SigFound.loc
  cases s.standardName with
  | none => rfl
  | some sn => rfl

theorem sigTermsLoop_ok (sg : SG) (dataVars : List Str) (f : SigFound → List (Str × Str)) :
    ∀ (sigs : List SigFound) (acc : List (Option Str × List (Str × Str))) (last : Option (List (Str × Str))),
      (∀ s ∈ sigs, s.terms sg dataVars = .ok (f s)) →
      sigTermsLoop sg dataVars acc last sigs = .ok (sigs.foldl (fun a s => setLoc (s.loc sg) (f s) a) acc, if sigs = [] then last else sigs.getLast?.map f) := by
  intro sigs
  induction sigs with
  | nil => intro acc last _; rfl
  | cons s sigs ih =>
    intro acc last h
    show (sigLocTerms sg dataVars s).bind _ = _
    rw [sigLocTerms_eq, h s (by simp)]
    show sigTermsLoop sg dataVars (setLoc (s.loc sg) (f s) acc) (some (f s)) sigs = _
    rw [ih _ _ (fun t ht => h t (List.mem_cons_of_mem _ ht))]
    cases sigs with
    | nil => rfl
    | cons t sigs => rw [if_neg (List.cons_ne_nil _ _), if_neg (List.cons_ne_nil _ _), List.getLast?_cons_cons]; rfl

theorem foldl_setLoc_new (sg : SG) (f : SigFound → List (Str × Str)) :
    ∀ (sigs : List SigFound) (acc : List (Option Str × List (Str × Str))), (∀ s ∈ sigs, s.loc sg ∉ acc.map (·.1)) → (sigs.map (SigFound.loc sg)).Nodup →
      sigs.foldl (fun a s => setLoc (s.loc sg) (f s) a) acc = acc ++ sigs.map fun s => (s.loc sg, f s) := by
  intro sigs
  induction sigs with
  | nil => intro acc _ _; simp
  | cons s sigs ih =>
    intro acc h hn
    rw [List.map_cons, List.nodup_cons] at hn
    rw [List.foldl_cons, ih, setLoc_new _ _ _ (h s (by simp))]
    · simp
    · intro t ht
      rw [setLoc_keys]
      rintro (he | he)
      · exact hn.1 (he ▸ List.mem_map_of_mem ht)
      · exact h t (List.mem_cons_of_mem _ ht) he
    · exact hn.2

/-- **C197** (locations): when the sigma variables of a dataset have different locations and the terms of each of them can be decoded, `get_sigma_terms` gives, for each of them in the order of the dataset, its own terms
with its location. -/
theorem C197_locations (sg : SG) (dataVars : List Str) (rename : Bool) (sigs : List SigFound) (f : SigFound → List (Str × Str)) (h : ∀ s ∈ sigs, s.terms sg dataVars = .ok (f s))
    (hn : (sigs.map (SigFound.loc sg)).Nodup) :
    sigTermsAll sg dataVars rename sigs = .ok (sigs.map fun s => (s.loc sg, f s)) := by
  unfold sigTermsAll
  rw [sigTermsLoop_ok sg dataVars f sigs [] none h, foldl_setLoc_new sg f sigs [] (by simp) hn]
  rfl

/-- **C197** (given location): with the location of a single sigma variable, its terms are given as such; with a location without sigma variable, the result is `None`. -/
theorem C197_one (sg : SG) (dataVars : List Str) (rename : Bool) (s : SigFound) (t : List (Str × Str)) (h : s.terms sg dataVars = .ok t) :
    sigTermsOne sg dataVars rename [s] = .ok (some t) ∧ sigTermsOne sg dataVars rename [] = .ok none := by
  refine ⟨?_, rfl⟩
  unfold sigTermsOne
  rw [sigTermsLoop_ok sg dataVars (fun _ => t) [s] [] none (by simpa using h)]
  rfl

/-- **C197** (failures): when the terms of a sigma variable cannot be decoded, and those of the variables before it can, its error is raised. -/
theorem C197_failure (sg : SG) (dataVars : List Str) (rename : Bool) (pre post : List SigFound) (s : SigFound) (f : SigFound → List (Str × Str)) (e : STErr)
    (hp : ∀ s ∈ pre, s.terms sg dataVars = .ok (f s)) (h : s.terms sg dataVars = .error e) :
    sigTermsAll sg dataVars rename (pre ++ s :: post) = .error e ∧ sigTermsOne sg dataVars rename (pre ++ s :: post) = .error e := by
  have key : ∀ (pre : List SigFound) (acc : List (Option Str × List (Str × Str))) (last : Option (List (Str × Str))), (∀ s ∈ pre, s.terms sg dataVars = .ok (f s)) →
      sigTermsLoop sg dataVars acc last (pre ++ s :: post) = .error e := by
    intro pre
    induction pre with
    | nil =>
      intro acc last _
      show (sigLocTerms sg dataVars s).bind _ = _
      rw [sigLocTerms_eq, h]; rfl
    | cons p pre ih =>
      intro acc last hp
      show (sigLocTerms sg dataVars p).bind _ = _
      rw [sigLocTerms_eq, hp p (by simp)]
      exact ih _ _ (fun t ht => hp t (List.mem_cons_of_mem _ ht))
  unfold sigTermsAll sigTermsOne
  rw [key pre [] none hp]
  exact ⟨rfl, rfl⟩

/-- **C197 is violated** by sigma variables that have the same location, or none, as those of the centers and the edges of the layers in most files: only the terms of the last one are given. -/
theorem C197_same_location_violated (sg : SG) (dataVars : List Str) (rename : Bool) (pre mid post : List SigFound) (s t : SigFound) (f : SigFound → List (Str × Str))
    (h : ∀ x ∈ pre ++ s :: mid ++ t :: post, x.terms sg dataVars = .ok (f x)) (hl : s.loc sg = t.loc sg) (hpost : ∀ x ∈ post, x.loc sg ≠ t.loc sg) :
    ∃ r, sigTermsAll sg dataVars rename (pre ++ s :: mid ++ t :: post) = .ok r ∧ atLoc (s.loc sg) r = some (f t) := by
  refine ⟨_, by unfold sigTermsAll; rw [sigTermsLoop_ok sg dataVars f _ [] none h]; rfl, ?_⟩
  show atLoc (s.loc sg) (List.foldl _ [] _) = _
  rw [List.foldl_append, List.foldl_cons]
  have key : ∀ (l : List SigFound) (acc : List (Option Str × List (Str × Str))), (∀ x ∈ l, x.loc sg ≠ t.loc sg) →
      atLoc (t.loc sg) (l.foldl (fun a s => setLoc (s.loc sg) (f s) a) acc) = atLoc (t.loc sg) acc := by
    intro l
    induction l with
    | nil => intro acc _; rfl
    | cons x l ih =>
      intro acc hx
      rw [List.foldl_cons, ih _ (fun y hy => hx y (List.mem_cons_of_mem _ hy)), atLoc_setLoc, if_neg (fun e => hx x (by simp) e.symm)]
  rw [hl, key post _ hpost, atLoc_setLoc, if_pos rfl]

-- the centers and the edges of the layers, without location: only the edges are there
def exSigs : List SigFound :=
  [⟨"sc_r".toList, some "ocean_s_coordinate_g2".toList, some "s: sc_r C: Cs_r eta: zeta depth: h depth_c: hc".toList⟩,
   ⟨"sc_w".toList, some "ocean_s_coordinate_g2".toList, some "s: sc_w C: Cs_w eta: zeta depth: h depth_c: hc".toList⟩]

def exSigVars : List Str := ["sc_r".toList, "Cs_r".toList, "sc_w".toList, "Cs_w".toList, "zeta".toList, "h".toList, "hc".toList]

example : (sigTermsAll {} exSigVars false exSigs).toOption.map (fun l => l.map fun p => (p.1, p.2.map Prod.fst)) =
    some [(none, ["sc_w".toList, "type".toList, "Cs_w".toList, "zeta".toList, "h".toList, "hc".toList])] := by decide +kernel

-- with locations: both are there
def exSigsLoc : List SigFound :=
  [⟨"sc_r".toList, some "ocean_s_coordinate_g2_at_r_location".toList, some "s: sc_r C: Cs_r eta: zeta depth: h depth_c: hc".toList⟩,
   ⟨"sc_w".toList, some "ocean_s_coordinate_g2_at_w_location".toList, some "s: sc_w C: Cs_w eta: zeta depth: h depth_c: hc".toList⟩]

example : (∃ f : SigFound → List (Str × Str), ∀ s ∈ exSigsLoc, s.terms {} exSigVars = .ok (f s)) ∧ (exSigsLoc.map (SigFound.loc {})).Nodup := by
  refine ⟨⟨fun s => ((s.terms {} exSigVars).toOption).getD [], ?_⟩, by decide +kernel⟩
  decide +kernel

/-- **C197 is violated** by a sigma variable whose name and standard name say different locations, which is documented as an error: `get_sigma_terms` gives its terms, with the location of its standard name. -/
theorem C197_inconsistent_violated : ∃ (s : SigFound) (t : List (Str × Str)),
    getLocation {} ⟨some s.name, s.standardName, none⟩ = none ∧ sigTermsAll {} exSigVars false [s] = .ok [(some "r".toList, t)] :=
  ⟨⟨"sc_w".toList, some "ocean_s_coordinate_g2_at_r_location".toList, some "s: sc_w C: Cs_w eta: zeta depth: h depth_c: hc".toList⟩,
    [("sc_w".toList, "sig".toList), ("type".toList, "ocean_s_coordinate_g2".toList), ("Cs_w".toList, "cs".toList), ("zeta".toList, "ssh".toList), ("h".toList, "bathy".toList), ("hc".toList, "hc".toList)],
    by decide +kernel, by decide +kernel⟩

/-! ## C198: heights -/

/-- the CF name and attributes of depths -/
def depthAttrs (std long : Str) : Attrs := [("standard_name".toList, .str std), ("long_name".toList, .str long), ("units".toList, .str "m".toList)]

/-- the CF attributes of pressures -/
def plevAttrs (std long : Str) : Attrs := [("standard_name".toList, .str std), ("long_name".toList, .str long), ("units".toList, .str "Pa".toList)]

theorem depth_formatted : (formatDataVar (α := Unit) {} builtinVars builtinCoords { name := some "depth".toList } false [] ⟨none, ⟨[], [], ()⟩, []⟩) =
    .ok ⟨some "depth".toList, ⟨[], depthAttrs "ocean_layer_depth".toList "Depth".toList, ()⟩, []⟩ := by
  rfl

theorem plev_formatted : (formatDataVar (α := Unit) {} builtinVars builtinCoords { name := some "plev".toList } false [] ⟨none, ⟨[], [], ()⟩, []⟩) =
    .ok ⟨some "plev".toList, ⟨[], plevAttrs "air_pressure".toList "Air pressure".toList, ()⟩, []⟩ := by
  rfl

/-- the suffix of a location -/
def locSuffix : Option Str → Str
  | none => []
  | some l => '_' :: l

/-- the standard name at a location -/
def stdAt (std : Str) : Option Str → Str
  | none => std
  | some l => std ++ "_at_".toList ++ lower l ++ "_location".toList

/-- the long name at a location -/
def longAt (long : Str) : Option Str → Str
  | none => long
  | some l => long ++ " at ".toList ++ upper l ++ " location".toList

/-- **C198** (labels): with the built-in specifications, the heights of an ocean formula are named `depth`, those of the atmosphere `plev`, followed by their location if any, with the standard name, the long name (at this location)
and the units of these. -/
theorem C198_labels (type : Str) (loc : Option Str) (hl : loc ≠ some []) :
    heightLabels {} loadedVars loadedCoords type loc = .ok (
      if type = "atmosphere_sigma_coordinate".toList then
        (some ("plev".toList ++ locSuffix loc), plevAttrs (stdAt "air_pressure".toList loc) (longAt "Air pressure".toList loc))
      else (some ("depth".toList ++ locSuffix loc), depthAttrs (stdAt "ocean_layer_depth".toList loc) (longAt "Depth".toList loc))) := by
  rw [loadedVars_eq, loadedCoords_eq]
  unfold heightLabels heightName
  by_cases ht : type = "atmosphere_sigma_coordinate".toList
  · rw [if_pos ht, if_pos ht, plev_formatted]
    cases loc with
    | none => rfl
    | some l =>
      cases l with
      | nil => exact absurd rfl hl
      | cons c l =>
        refine Eq.trans (b := .ok (some ("plev".toList ++ '_' :: ((c :: l) ++ [])), plevAttrs (stdAt "air_pressure".toList (some (c :: l))) (longAt "Air pressure".toList (some (c :: l))))) rfl ?_
        rw [List.append_nil]; rfl
  · rw [if_neg ht, if_neg ht, depth_formatted]
    cases loc with
    | none => rfl
    | some l =>
      cases l with
      | nil => exact absurd rfl hl
      | cons c l =>
        refine Eq.trans (b := .ok (some ("depth".toList ++ '_' :: ((c :: l) ++ [])), depthAttrs (stdAt "ocean_layer_depth".toList (some (c :: l))) (longAt "Depth".toList (some (c :: l))))) rfl ?_
        rw [List.append_nil]; rfl

/-- what `decode_cf_sigma` adds for a height: an array with the same values at the same named positions and the given attributes. Its dimensions are in the order of the first data variable that has them all, if any. -/
structure Added {α : Type} (vars : List (Str × List Str)) (h : HArr α) (attrs : Attrs) (out : HArr α) : Prop where
  val : out.val = h.val
  attrs : out.attrs = attrs
  dims : ∀ d, d ∈ out.dims ↔ d ∈ h.dims
  none : (∀ v ∈ vars, ∃ d ∈ h.dims, d ∉ v.2) → out.dims = h.dims
  order : ∀ pre v post, vars = pre ++ v :: post → (∀ d ∈ h.dims, d ∈ v.2) → (∀ w ∈ pre, ∃ d ∈ h.dims, d ∉ w.2) → out.dims.Sublist v.2

theorem sigFind_first {β : Type} (p : β → Bool) (pre post : List β) (v : β) (hv : p v = true) (hpre : ∀ w ∈ pre, p w = false) : (pre ++ v :: post).find? p = some v := by
  induction pre with
  | nil => simp [List.find?_cons, hv]
  | cons w pre ih =>
    rw [List.cons_append, List.find?_cons, hpre w (by simp)]
    exact ih (fun x hx => hpre x (List.mem_cons_of_mem _ hx))

theorem addHeight_new {α : Type} (ds : SDs α) (name : Str) (h : HArr α) (hv : name ∉ ds.vars.map (·.1)) (hc : lookupS name ds.coords = none) :
    ∃ out, addHeight ds name h = .ok ⟨ds.vars, ds.coords ++ [(name, out)]⟩ ∧ Added ds.vars h h.attrs out := by
  unfold addHeight
  cases hf : ds.vars.find? (fun v => h.dims.all fun d => decide (d ∈ v.2)) with
  | some v =>
    dsimp only
    rw [if_neg hv, hc]
    have hall : ∀ d ∈ h.dims, d ∈ v.2 := by
      have := List.find?_some hf
      simpa using this
    refine ⟨_, rfl, ⟨rfl, rfl, fun d => ?_, fun hno => ?_, fun pre w post he hw hpre => ?_⟩⟩
    · dsimp only
      rw [List.mem_filter, decide_eq_true_eq]
      exact ⟨fun x => x.2, fun x => ⟨hall d x, x⟩⟩
    · obtain ⟨d, hd, hd'⟩ := hno v (List.mem_of_find?_eq_some hf)
      exact absurd (hall d hd) hd'
    · have : w = v := by
        have hfw : ds.vars.find? (fun v => h.dims.all fun d => decide (d ∈ v.2)) = some w := by
          rw [he]
          refine sigFind_first _ pre post w (by simpa using hw) (fun x hx => ?_)
          obtain ⟨d, hd, hd'⟩ := hpre x hx
          rw [List.all_eq_false]
          exact ⟨d, hd, by simpa using hd'⟩
        rw [hf] at hfw
        exact (Option.some.inj hfw).symm
      subst this
      exact List.filter_sublist
  | none =>
    dsimp only
    have hset : ∀ l : List (Str × HArr α), lookupS name l = none → setS name h l = l ++ [(name, h)] := by
      intro l
      induction l with
      | nil => intro _; rfl
      | cons p l ih =>
        obtain ⟨k, x⟩ := p
        intro hl
        have hl' : (if name = k then some x else lookupS name l) = none := hl
        by_cases hk : name = k
        · rw [if_pos hk] at hl'; cases hl'
        · rw [if_neg hk] at hl'
          show (if name = k then (name, h) :: l else (k, x) :: setS name h l) = _
          rw [if_neg hk, ih hl']; rfl
    rw [hset _ hc]
    have hfil : ds.vars.filter (fun v => decide (v.1 ≠ name)) = ds.vars := by
      rw [List.filter_eq_self]
      intro v hvm
      rw [decide_eq_true_eq]
      rintro rfl
      exact hv (List.mem_map_of_mem hvm)
    rw [hfil]
    refine ⟨h, rfl, ⟨rfl, rfl, fun d => Iff.rfl, fun _ => rfl, fun pre w post he hw hpre => ?_⟩⟩
    exfalso
    rw [List.find?_eq_none] at hf
    have := hf w (by rw [he]; simp)
    exact this (by simpa using hw)

theorem Added.congr {α : Type} {vars : List (Str × List Str)} {h h' : HArr α} {attrs : Attrs} {out : HArr α} (hv : h.val = h'.val) (hd : h.dims = h'.dims) (a : Added vars h attrs out) : Added vars h' attrs out := by
  obtain ⟨a1, a2, a3, a4, a5⟩ := a
  rw [hv] at a1
  rw [hd] at a3 a4 a5
  exact ⟨a1, a2, a3, a4, a5⟩

/-- the formula that the terms of a sigma variable name -/
def typeOf (t : List (Str × Str)) : Str := (lookupS "type".toList t).getD []

theorem decodeLocs_added {α : Type} (sg : SG) (vcat ccat : CfCat) (compute : Str → List (Str × Str) → HArr α) (f : SigFound → List (Str × Str)) (name : SigFound → Str) (attrs : SigFound → Attrs) :
    ∀ (sigs : List SigFound) (ds : SDs α),
      (∀ s ∈ sigs, sigmaCall (typeOf (f s)) (sigmaKwargs (f s)) = .ok ()) →
      (∀ s ∈ sigs, heightLabels sg vcat ccat (typeOf (f s)) (s.loc sg) = .ok (some (name s), attrs s)) →
      (sigs.map name).Nodup → (∀ s ∈ sigs, name s ∉ ds.vars.map (·.1) ∧ lookupS (name s) ds.coords = none) →
      ∃ ds', decodeLocs sg vcat ccat compute ds (sigs.map fun s => (s.loc sg, f s)) = .ok ds' ∧ ds'.vars = ds.vars ∧ ds'.coords.map (·.1) = ds.coords.map (·.1) ++ sigs.map name ∧
        (∀ n, n ∉ sigs.map name → lookupS n ds'.coords = lookupS n ds.coords) ∧
        ∀ s ∈ sigs, ∃ out, lookupS (name s) ds'.coords = some out ∧ Added ds.vars (compute (typeOf (f s)) (sigmaKwargs (f s))) (attrs s) out := by
  intro sigs
  induction sigs with
  | nil => intro ds _ _ _ _; exact ⟨ds, rfl, rfl, by simp, fun n _ => rfl, by simp⟩
  | cons s sigs ih =>
    intro ds hcall hlab hnd hnew
    rw [List.map_cons, List.nodup_cons] at hnd
    have hs := hnew s (by simp)
    obtain ⟨out, hadd, hout⟩ := addHeight_new ds (name s) { compute (typeOf (f s)) (sigmaKwargs (f s)) with attrs := attrs s } hs.1 hs.2
    have hstep : decodeLoc sg vcat ccat compute ds (s.loc sg, f s) = .ok ⟨ds.vars, ds.coords ++ [(name s, out)]⟩ := by
      unfold decodeLoc
      dsimp only
      have h1 := hcall s (by simp)
      have h2 := hlab s (by simp)
      unfold typeOf at h1 h2 hadd
      rw [h1, h2]
      exact hadd
    have hlook : ∀ n, n ≠ name s → lookupS n (ds.coords ++ [(name s, out)]) = lookupS n ds.coords := by
      intro n hn
      rw [lookupS_append]
      have : lookupS n [(name s, out)] = none := by
        show (if n = name s then some out else none) = none
        rw [if_neg hn]
      rw [this, Option.or_none]
    have hne : ∀ t ∈ sigs, name t ≠ name s := fun t ht e => hnd.1 (e ▸ List.mem_map_of_mem ht)
    obtain ⟨ds', hds, hv, hk, hold, hall⟩ := ih ⟨ds.vars, ds.coords ++ [(name s, out)]⟩ (fun t ht => hcall t (List.mem_cons_of_mem _ ht)) (fun t ht => hlab t (List.mem_cons_of_mem _ ht)) hnd.2
      (fun t ht => ⟨(hnew t (List.mem_cons_of_mem _ ht)).1, (hlook _ (hne t ht)).trans (hnew t (List.mem_cons_of_mem _ ht)).2⟩)
    refine ⟨ds', ?_, hv, ?_, ?_, ?_⟩
    · show (decodeLoc sg vcat ccat compute ds (s.loc sg, f s)).bind _ = _
      rw [hstep]
      exact hds
    · rw [hk]; simp
    · intro n hn
      rw [List.map_cons, List.mem_cons, not_or] at hn
      rw [hold n hn.2]
      exact hlook n hn.1
    · intro t ht
      rcases List.mem_cons.1 ht with rfl | ht'
      · refine ⟨out, ?_, Added.congr (h := { compute (typeOf (f t)) (sigmaKwargs (f t)) with attrs := attrs t }) rfl rfl hout⟩
        rw [hold _ hnd.1]
        show lookupS (name t) (ds.coords ++ [(name t, out)]) = some out
        rw [lookupS_append, hs.2]
        show (if name t = name t then some out else none) = some out
        rw [if_pos rfl]
      · exact hall t ht'

/-- **C198** (heights, any specifications): when the sigma variables of a dataset have different locations, their terms can be decoded, the arguments of their formulas are there, and their heights have different names that the dataset does not have,
`decode_cf_sigma` adds exactly these heights, in order, as coordinates: the values of the formula at the same named positions, in the order of dimensions of the first data variable that has them all. Everything else is unchanged. -/
theorem C198_added {α : Type} (sg : SG) (vcat ccat : CfCat) (compute : Str → List (Str × Str) → HArr α) (ds : SDs α) (sigs : List SigFound) (rename : Bool) (errors : ErrMode)
    (f : SigFound → List (Str × Str)) (name : SigFound → Str) (attrs : SigFound → Attrs)
    (hterms : ∀ s ∈ sigs, s.terms sg (ds.vars.map (·.1)) = .ok (f s)) (hloc : (sigs.map (SigFound.loc sg)).Nodup)
    (hcall : ∀ s ∈ sigs, sigmaCall (typeOf (f s)) (sigmaKwargs (f s)) = .ok ())
    (hlab : ∀ s ∈ sigs, heightLabels sg vcat ccat (typeOf (f s)) (s.loc sg) = .ok (some (name s), attrs s))
    (hnames : (sigs.map name).Nodup) (hnew : ∀ s ∈ sigs, name s ∉ ds.vars.map (·.1) ∧ lookupS (name s) ds.coords = none) :
    ∃ ds', decodeDs sg vcat ccat compute ds sigs rename errors = .ok ds' ∧ ds'.vars = ds.vars ∧ ds'.coords.map (·.1) = ds.coords.map (·.1) ++ sigs.map name ∧
      (∀ n, n ∉ sigs.map name → lookupS n ds'.coords = lookupS n ds.coords) ∧
      ∀ s ∈ sigs, ∃ out, lookupS (name s) ds'.coords = some out ∧ Added ds.vars (compute (typeOf (f s)) (sigmaKwargs (f s))) (attrs s) out := by
  unfold decodeDs
  rw [C197_locations sg _ rename sigs f hterms hloc]
  exact decodeLocs_added sg vcat ccat compute f name attrs sigs ds hcall hlab hnames hnew

theorem loc_ne_nil (s : SigFound) : s.loc {} ≠ some [] := by
  unfold SigFound.loc
  cases s.standardName with
  | none => exact fun h => by cases h
  | some sn =>
    show (parseAttr {} .standardName sn).2 ≠ some []
    unfold parseAttr
    cases hp : parseRe {} .standardName sn with
    | none => exact fun h => by cases h
    | some p =>
      obtain ⟨root, loc⟩ := p
      show some (lower loc) ≠ some []
      intro h
      have hl : loc = [] := by
        have := Option.some.inj h
        unfold lower at this
        exact List.map_eq_nil_iff.1 this
      unfold parseRe at hp
      dsimp only at hp
      split at hp
      · obtain ⟨n, _, hn⟩ := List.exists_of_findSome?_eq_some hp
        unfold tryRoot at hn
        split at hn
        · rw [Option.map_eq_some_iff] at hn
          obtain ⟨l, hl', he⟩ := hn
          obtain ⟨rfl, rfl⟩ := Prod.mk.inj he
          unfold tryLoc at hl'
          rw [if_pos rfl] at hl'
          obtain ⟨m, hm, hm'⟩ := List.exists_of_findSome?_eq_some hl'
          split at hm'
          · have := Option.some.inj hm'
            rw [hl, List.take_eq_nil_iff] at this
            rcases this with h0 | h0
            · subst h0; exact absurd hm (by simp [desc])
            · rw [h0] at hm; exact absurd hm (by simp [desc, spanLen])
          · cases hm'
        · cases hn
      · cases hp

/-- the name of the heights of a sigma variable with the built-in specifications -/
def builtinHeight (type : Str) (loc : Option Str) : Str := (if type = "atmosphere_sigma_coordinate".toList then "plev".toList else "depth".toList) ++ locSuffix loc

/-- their attributes -/
def builtinHeightAttrs (type : Str) (loc : Option Str) : Attrs :=
  if type = "atmosphere_sigma_coordinate".toList then plevAttrs (stdAt "air_pressure".toList loc) (longAt "Air pressure".toList loc)
  else depthAttrs (stdAt "ocean_layer_depth".toList loc) (longAt "Depth".toList loc)

theorem builtinHeight_inj (t t' : Str) (l l' : Option Str) (h : builtinHeight t l = builtinHeight t' l') : l = l' := by
  unfold builtinHeight at h
  have key : ∀ (a : Str), a ++ locSuffix l = a ++ locSuffix l' → l = l' := by
    intro a ha
    have := List.append_cancel_left ha
    cases l <;> cases l'
    · rfl
    · exact absurd this (by simp [locSuffix])
    · exact absurd this (by simp [locSuffix])
    · have := (List.cons.inj this).2
      rw [this]
  by_cases h1 : t = "atmosphere_sigma_coordinate".toList <;> by_cases h2 : t' = "atmosphere_sigma_coordinate".toList
  · rw [if_pos h1, if_pos h2] at h; exact key _ h
  · rw [if_pos h1, if_neg h2] at h; exact absurd (List.cons.inj h).1 (by decide)
  · rw [if_neg h1, if_pos h2] at h; exact absurd (List.cons.inj h).1 (by decide)
  · rw [if_neg h1, if_neg h2] at h; exact key _ h

theorem nodup_map_of_inj {β γ δ : Type} (f : β → γ) (g : β → δ) (l : List β) (h : ∀ a b, g a = g b → f a = f b) (hn : (l.map f).Nodup) : (l.map g).Nodup := by
  induction l with
  | nil => exact List.nodup_nil
  | cons a l ih =>
    rw [List.map_cons, List.nodup_cons] at hn ⊢
    refine ⟨fun hm => hn.1 ?_, ih hn.2⟩
    obtain ⟨b, hb, he⟩ := List.mem_map.1 hm
    exact List.mem_map.2 ⟨b, hb, h b a he⟩

/-- **C198** (heights, built-in specifications): with the built-in specifications, when the sigma variables of a dataset have different locations, their terms can be decoded, the arguments of their formulas are there and the dataset has no variable
named as a height, all the heights are added to the dataset, named and described as in `C198_labels`, and the rest is unchanged. -/
theorem C198_builtin {α : Type} (compute : Str → List (Str × Str) → HArr α) (ds : SDs α) (sigs : List SigFound) (rename : Bool) (errors : ErrMode)
    (f : SigFound → List (Str × Str))
    (hterms : ∀ s ∈ sigs, s.terms {} (ds.vars.map (·.1)) = .ok (f s)) (hloc : (sigs.map (SigFound.loc {})).Nodup)
    (hcall : ∀ s ∈ sigs, sigmaCall (typeOf (f s)) (sigmaKwargs (f s)) = .ok ())
    (hnew : ∀ s ∈ sigs, builtinHeight (typeOf (f s)) (s.loc {}) ∉ ds.vars.map (·.1) ∧ lookupS (builtinHeight (typeOf (f s)) (s.loc {})) ds.coords = none) :
    ∃ ds', decodeDs {} loadedVars loadedCoords compute ds sigs rename errors = .ok ds' ∧ ds'.vars = ds.vars ∧
      ds'.coords.map (·.1) = ds.coords.map (·.1) ++ sigs.map (fun s => builtinHeight (typeOf (f s)) (s.loc {})) ∧
      (∀ n, n ∉ sigs.map (fun s => builtinHeight (typeOf (f s)) (s.loc {})) → lookupS n ds'.coords = lookupS n ds.coords) ∧
      ∀ s ∈ sigs, ∃ out, lookupS (builtinHeight (typeOf (f s)) (s.loc {})) ds'.coords = some out ∧
        Added ds.vars (compute (typeOf (f s)) (sigmaKwargs (f s))) (builtinHeightAttrs (typeOf (f s)) (s.loc {})) out := by
  refine C198_added {} loadedVars loadedCoords compute ds sigs rename errors f (fun s => builtinHeight (typeOf (f s)) (s.loc {})) (fun s => builtinHeightAttrs (typeOf (f s)) (s.loc {})) hterms hloc hcall ?_ ?_ hnew
  · intro s _
    rw [C198_labels _ _ (loc_ne_nil s)]
    unfold builtinHeight builtinHeightAttrs
    split <;> rfl
  · exact nodup_map_of_inj (SigFound.loc {}) _ sigs (fun a b h => builtinHeight_inj _ _ _ _ h) hloc

/-- the names of the arguments are among these -/
def Only (kwargs : List (Str × Str)) (l : List Str) : Prop := ∀ p ∈ kwargs, p.1 ∈ l

/-- these names are among the arguments -/
def Given (kwargs : List (Str × Str)) (l : List Str) : Prop := ∀ k ∈ l, k ∈ kwargs.map (·.1)

/-- **C198** (arguments): the calls that succeed are those with all the terms of the formula and no other one: pressure at the surface and at the top for the atmosphere; sea surface height and bathymetry
for the ocean, with the critical depth and the two parameters of the stretching for the s coordinate, and with the critical depth and either the stretching or its two parameters for its generic forms. -/
theorem C198_arguments (kwargs : List (Str × Str)) :
    (sigmaCall "atmosphere_sigma_coordinate".toList kwargs = .ok () ↔ Given kwargs ["sig".toList, "ps".toList, "ptop".toList] ∧ Only kwargs ["sig".toList, "ps".toList, "ptop".toList]) ∧
    (sigmaCall "ocean_sigma_coordinate".toList kwargs = .ok () ↔ Given kwargs ["sig".toList, "ssh".toList, "bathy".toList] ∧ Only kwargs ["sig".toList, "ssh".toList, "bathy".toList]) ∧
    (sigmaCall "ocean_s_coordinate".toList kwargs = .ok () ↔ Given kwargs ["sig".toList, "ssh".toList, "bathy".toList, "hc".toList, "thetas".toList, "thetab".toList] ∧
      Only kwargs ["sig".toList, "ssh".toList, "bathy".toList, "hc".toList, "thetas".toList, "thetab".toList, "cs".toList, "cs_type".toList]) ∧
    ∀ g : Str, g = "ocean_s_coordinate_g1".toList ∨ g = "ocean_s_coordinate_g2".toList → (sigmaCall g kwargs = .ok () ↔ Given kwargs ["sig".toList, "ssh".toList, "bathy".toList, "hc".toList] ∧
      Only kwargs ["sig".toList, "ssh".toList, "bathy".toList, "hc".toList, "thetas".toList, "thetab".toList, "cs".toList, "cs_type".toList] ∧
      (Given kwargs ["cs".toList] ∨ Given kwargs ["thetas".toList, "thetab".toList])) := by
  have key : ∀ (t : Str) (req opt : List Str), lookupS t sigmaArgs = some (req, opt) →
      (sigmaCall t kwargs = .ok () ↔ Given kwargs req ∧ Only kwargs (req ++ opt) ∧ ("thetas".toList ∈ opt → Given kwargs ["cs".toList] ∨ Given kwargs ["thetas".toList, "thetab".toList])) := by
    intro t req opt h
    unfold sigmaCall Given Only
    rw [h]
    dsimp only
    by_cases h1 : ¬ (∀ k ∈ req, k ∈ kwargs.map (·.1)) ∨ ¬ (∀ p ∈ kwargs, p.1 ∈ req ++ opt)
    · rw [if_pos h1]
      refine ⟨fun h => (by simp at h), fun h => ?_⟩
      rcases h1 with h1 | h1
      · exact absurd h.1 h1
      · exact absurd h.2.1 h1
    · rw [if_neg h1]
      rw [not_or, not_not, not_not] at h1
      by_cases h2 : "thetas".toList ∈ opt ∧ "cs".toList ∉ kwargs.map (·.1) ∧ ("thetas".toList ∉ kwargs.map (·.1) ∨ "thetab".toList ∉ kwargs.map (·.1))
      · rw [if_pos h2]
        refine ⟨fun h => (by simp at h), fun h => ?_⟩
        rcases h.2.2 h2.1 with h3 | h3
        · exact absurd (h3 _ (by simp)) h2.2.1
        · rcases h2.2.2 with h4 | h4
          · exact absurd (h3 _ (by simp)) h4
          · exact absurd (h3 _ (by simp)) h4
      · rw [if_neg h2]
        refine ⟨fun _ => ⟨h1.1, h1.2, fun ho => ?_⟩, fun _ => rfl⟩
        by_cases hc : "cs".toList ∈ kwargs.map (·.1)
        · left; intro k hk; rw [List.mem_singleton] at hk; rw [hk]; exact hc
        · right
          intro k hk
          have h5 : ¬ ("thetas".toList ∉ kwargs.map (·.1) ∨ "thetab".toList ∉ kwargs.map (·.1)) := fun h => h2 ⟨ho, hc, h⟩
          rw [not_or, not_not, not_not] at h5
          rcases List.mem_cons.1 hk with rfl | hk
          · exact h5.1
          · rw [List.mem_singleton] at hk; rw [hk]; exact h5.2
  refine ⟨?_, ?_, ?_, ?_⟩
  · rw [key _ ["sig".toList, "ps".toList, "ptop".toList] [] (by decide +kernel)]
    exact ⟨fun h => ⟨h.1, h.2.1⟩, fun h => ⟨h.1, h.2, fun h => (by simp at h)⟩⟩
  · rw [key _ ["sig".toList, "ssh".toList, "bathy".toList] [] (by decide +kernel)]
    exact ⟨fun h => ⟨h.1, h.2.1⟩, fun h => ⟨h.1, h.2, fun h => (by simp at h)⟩⟩
  · rw [key _ ["sig".toList, "ssh".toList, "bathy".toList, "hc".toList, "thetas".toList, "thetab".toList] ["cs".toList, "cs_type".toList] (by decide +kernel)]
    exact ⟨fun h => ⟨h.1, h.2.1⟩, fun h => ⟨h.1, h.2, fun h => absurd h (by decide +kernel)⟩⟩
  · intro g hg
    have : lookupS g sigmaArgs = some (["sig".toList, "ssh".toList, "bathy".toList, "hc".toList], ["thetas".toList, "thetab".toList, "cs".toList, "cs_type".toList]) := by
      rcases hg with rfl | rfl <;> decide +kernel
    rw [key _ _ _ this]
    exact ⟨fun h => ⟨h.1, h.2.1, h.2.2 (by simp)⟩, fun h => ⟨h.1, h.2.1, fun _ => h.2.2⟩⟩

/-- **C198** (errors): when the terms of a sigma variable cannot be decoded, `decode_cf_sigma` returns the dataset unchanged, unless errors are to be raised: then it raises `XoaSigmaError`. -/
theorem C198_errors {α : Type} (sg : SG) (vcat ccat : CfCat) (compute : Str → List (Str × Str) → HArr α) (ds : SDs α) (sigs : List SigFound) (rename : Bool) (errors : ErrMode)
    (h : sigTermsAll sg (ds.vars.map (·.1)) rename sigs = .error .sigmaError) :
    decodeDs sg vcat ccat compute ds sigs rename errors = if errors = .raise then .error .sigmaError else .ok ds := by
  unfold decodeDs
  rw [h]

/-- **C198** (no sigma variable): the dataset is returned unchanged. -/
theorem C198_no_sigma {α : Type} (sg : SG) (vcat ccat : CfCat) (compute : Str → List (Str × Str) → HArr α) (ds : SDs α) (rename : Bool) (errors : ErrMode) :
    decodeDs sg vcat ccat compute ds [] rename errors = .ok ds := rfl

/-- **C198 is violated** when the dataset already has a coordinate that is named as the height and a data variable has its dimensions: the height is lost without any error, the old coordinate is left as it was. -/
theorem C198_existing_violated {α : Type} (sg : SG) (vcat ccat : CfCat) (compute : Str → List (Str × Str) → HArr α) (ds : SDs α) (s : SigFound) (rename : Bool) (errors : ErrMode)
    (t : List (Str × Str)) (name : Str) (attrs : Attrs) (old : HArr α)
    (hterms : s.terms sg (ds.vars.map (·.1)) = .ok t) (hcall : sigmaCall (typeOf t) (sigmaKwargs t) = .ok ()) (hlab : heightLabels sg vcat ccat (typeOf t) (s.loc sg) = .ok (some name, attrs))
    (hv : name ∉ ds.vars.map (·.1)) (hold : lookupS name ds.coords = some old) (hdims : ∃ v ∈ ds.vars, ∀ d ∈ (compute (typeOf t) (sigmaKwargs t)).dims, d ∈ v.2) :
    decodeDs sg vcat ccat compute ds [s] rename errors = .ok ds := by
  unfold decodeDs
  rw [C197_locations sg _ rename [s] (fun _ => t) (by simpa using hterms) (by simp)]
  show (decodeLoc sg vcat ccat compute ds (s.loc sg, t)).bind _ = _
  have hstep : decodeLoc sg vcat ccat compute ds (s.loc sg, t) = .ok ds := by
    unfold decodeLoc
    dsimp only
    unfold typeOf at hcall hlab hdims
    rw [hcall, hlab]
    show addHeight ds name _ = .ok ds
    unfold addHeight
    dsimp only
    cases hf : ds.vars.find? (fun v => (compute ((lookupS "type".toList t).getD []) (sigmaKwargs t)).dims.all fun d => decide (d ∈ v.2)) with
    | none =>
      exfalso
      obtain ⟨v, hvm, hd⟩ := hdims
      rw [List.find?_eq_none] at hf
      exact hf v hvm (by simpa using hd)
    | some v => dsimp only; rw [if_neg hv, hold]; rfl
  rw [hstep]; rfl

/-- **C198 is violated** when the formula fails although the terms could be decoded: with `errors="ignore"` the exception is raised anyway. -/
theorem C198_formula_error_violated {α : Type} (sg : SG) (vcat ccat : CfCat) (compute : Str → List (Str × Str) → HArr α) (ds : SDs α) (s : SigFound) (rename : Bool)
    (t : List (Str × Str)) (e : DecErr) (hterms : s.terms sg (ds.vars.map (·.1)) = .ok t) (hcall : sigmaCall (typeOf t) (sigmaKwargs t) = .error e) :
    decodeDs sg vcat ccat compute ds [s] rename .ignore = .error e := by
  unfold decodeDs
  rw [C197_locations sg _ rename [s] (fun _ => t) (by simpa using hterms) (by simp)]
  show (decodeLoc sg vcat ccat compute ds (s.loc sg, t)).bind _ = _
  have hstep : decodeLoc sg vcat ccat compute ds (s.loc sg, t) = .error e := by
    unfold decodeLoc
    dsimp only
    unfold typeOf at hcall
    rw [hcall]; rfl
  rw [hstep]; rfl

/-- **C198 is violated** by `rename=True`, which changes nothing. -/
theorem C198_rename_violated {α : Type} (sg : SG) (vcat ccat : CfCat) (compute : Str → List (Str × Str) → HArr α) (ds : SDs α) (sigs : List SigFound) (errors : ErrMode) :
    decodeDs sg vcat ccat compute ds sigs true errors = decodeDs sg vcat ccat compute ds sigs false errors := rfl

/-! ## The hypotheses of C198 on a dataset -/

def exSigDs : SDs Nat :=
  ⟨[("temp".toList, ["time".toList, "s_rho".toList, "y".toList, "x".toList]), ("sc_r".toList, ["s_rho".toList]), ("Cs_r".toList, ["s_rho".toList]), ("sc_w".toList, ["s_w".toList]), ("Cs_w".toList, ["s_w".toList]),
    ("zeta".toList, ["time".toList, "y".toList, "x".toList]), ("h".toList, ["y".toList, "x".toList]), ("hc".toList, [])], []⟩

def exSigF (s : SigFound) : List (Str × Str) := ((s.terms {} (exSigDs.vars.map (·.1))).toOption).getD []

example : (∀ s ∈ exSigsLoc, s.terms {} (exSigDs.vars.map (·.1)) = .ok (exSigF s)) ∧ (∀ s ∈ exSigsLoc, sigmaCall (typeOf (exSigF s)) (sigmaKwargs (exSigF s)) = .ok ()) ∧
    (∀ s ∈ exSigsLoc, builtinHeight (typeOf (exSigF s)) (s.loc {}) ∉ exSigDs.vars.map (·.1)) ∧
    exSigsLoc.map (fun s => builtinHeight (typeOf (exSigF s)) (s.loc {})) = ["depth_r".toList, "depth_w".toList] := by
  refine ⟨?_, ?_, ?_, ?_⟩ <;> decide +kernel

-- terms that can be decoded and a formula that cannot be used: no stretching and no parameter
def exSigBad : SigFound := ⟨"sc_r".toList, some "ocean_s_coordinate_g2".toList, some "s: sc_r eta: zeta depth: h depth_c: hc".toList⟩

example : (exSigBad.terms {} exSigVars).toOption.map (fun t => sigmaCall (typeOf t) (sigmaKwargs t)) = some (.error .sigmaError) := by decide +kernel

end Xoa
