import Verif.Wrappers
import Verif.OptionsProps
import Verif.CfDimsProps
import Verif.CoordGetProps
import Verif.CfFormatMoreProps

/-!
# C35 (`set_option`), C169 (`grid2loc`), C170 (`is_cmap`), C171 (`auto_format`)
-/

namespace Xoa

/-! ## C35: `set_option` and the flat form of `get_option` -/

/-- **C35**: after `set_option(name, value)`, where `name` is the flat name of an option, `get_option(name)` and
`get_option(section, option)` give this value, converted when the option is declared, for every history -/
theorem C35_set_option (user : Opts) (s : OSt) (a : Nat) (hc : s.cur = some a) (name sec opt : Str) (v : OVal)
    (hn : splitOption name = some (sec, opt)) :
    (getOption user name none (setOption user name v s).1).2 =
      .val (match specOf sec opt with | none => v | some (k, _) => (convert k v).getD v) ∧
    (getOption user sec (some opt) (setOption user name v s).1).2 = (getOption user name none (setOption user name v s).1).2 := by
  have hr : resolveName none name = some (sec, opt) := by unfold resolveName; rw [hn]
  have hg : given none [(name, v)] sec opt = some v := by
    unfold given
    simp [hr]
  have h := C35_set_value user s a hc none [(name, v)] (by simp [hr]) sec opt v hg
  have same : (getOption user sec (some opt) (setOption user name v s).1).2 = (getOption user name none (setOption user name v s).1).2 := by
    unfold getOption
    simp only [hn]
  refine ⟨?_, same⟩
  rw [← same]
  exact h

/-- a flat name is needed: with any other one `set_option` raises, and the options of the session are lost with it
(only those of the user file and the default ones are left) -/
theorem C35_set_option_raises (user : Opts) (s : OSt) (a : Nat) (hc : s.cur = some a) (name : Str) (v : OVal)
    (hn : splitOption name = none) :
    (setOption user name v s).2.1 = true ∧ ∀ sec opt : Str,
      inForce user (setOption user name v s).1 sec opt = inForce user { s with cur := none } sec opt := by
  have e : setOption user name v s = ({ s with cur := none }, true, some a) := by
    unfold setOption setInit
    rw [hc]
    simp only [collectOpts, hn]
  rw [e]
  exact ⟨rfl, fun _ _ => rfl⟩

example : splitOption "plot.cmapdiv".toList = some ("plot".toList, "cmapdiv".toList) ∧ splitOption "cmapdiv".toList = none ∧
    (getOption [] "plot.cmapdiv".toList none (setOption [] "plot.cmapdiv".toList (.str "x".toList) ⟨[[]], some 0⟩).1).2 = .val (.str "x".toList) := by
  decide +kernel

/-! ## C169: `grid2loc` -/

/-- **C169 is violated**: interpolation to random locations never returns anything, whatever the grid, the locations, the
specifications and the mode: the call to `get_time` is not a valid one. -/
theorem C169_grid2loc_violated {R : Type} (sg : SG) (two : CfTwo) (da loc : DSA) (compat : EMode) :
    ∃ e, (grid2loc sg two da loc compat : Except G2LErr R) = .error e := by
  unfold grid2loc
  cases locCoords sg two da loc compat with
  | error e => exact ⟨.get e, rfl⟩
  | ok b => exact ⟨.typeError, rfl⟩

/-- in particular, when the horizontal coordinates are found or not without an error and both objects have a depth or an altitude, the error is
the `TypeError` of that call; and when the locations have no vertical coordinate, which is the case of an horizontal
interpolation, the error is the one of `get_vertical`, although `errors="ignore"` is asked for -/
theorem C169_errors {R : Type} (sg : SG) (two : CfTwo) (da loc : DSA) (compat : EMode)
    (hh : ∀ (x : DSA) (n : Str), x = da ∨ x = loc → n = "lon".toList ∨ n = "lat".toList → ∃ r, specsSearch sg two x .any n .warn = .ok r) :
    (∀ x y : Option (DObj × Str) × Nat, getVertical sg two loc .ignore = .ok x → getVertical sg two da compat = .ok y →
      (grid2loc sg two da loc compat : Except G2LErr R) = .error .typeError) ∧
    (∀ x y : Option (DObj × Str) × Nat, specsSearch sg two loc .any "depth".toList .ignore = .ok x → x.1 = none →
      specsSearch sg two loc .any "altitude".toList .ignore = .ok y → y.1 = none →
      (grid2loc sg two da loc compat : Except G2LErr R) = .error (.get .badChoice)) := by
  obtain ⟨r1, h1⟩ := hh da "lon".toList (.inl rfl) (.inl rfl)
  obtain ⟨r2, h2⟩ := hh da "lat".toList (.inl rfl) (.inr rfl)
  obtain ⟨r3, h3⟩ := hh loc "lon".toList (.inr rfl) (.inl rfl)
  obtain ⟨r4, h4⟩ := hh loc "lat".toList (.inr rfl) (.inr rfl)
  have g : ∀ (x : DSA) (n : Str) (r : Option (DObj × Str) × Nat), specsSearch sg two x .any n .warn = .ok r →
      getCoordAny sg two x n .raise = .ok r := by
    intro x n r h
    unfold getCoordAny
    rw [h]; rfl
  have e : locCoords sg two da loc compat = locVertical sg two da loc compat := by
    unfold locCoords
    rw [g _ _ _ h1, g _ _ _ h2, g _ _ _ h3, g _ _ _ h4]
    rfl
  refine ⟨?_, ?_⟩
  · intro x y hx hy
    unfold grid2loc
    rw [e]
    have hl : ∃ b, locVertical sg two da loc compat = .ok b := by
      unfold locVertical
      rw [hx, hy]
      cases hb : x.1.isSome with
      | true => exact ⟨y.1.isSome, by simp [Except.bind, Except.map, hb]⟩
      | false => exact ⟨false, by simp [Except.bind, hb]⟩
    obtain ⟨b, hl⟩ := hl
    rw [hl]
    rfl
  · intro x y hx hx1 hy hy1
    have hv : getVertical sg two loc .ignore = .error .badChoice := by
      unfold getVertical
      rw [hx]
      simp only [Except.mapError, Except.bind, hx1, hy, hy1]
    unfold grid2loc
    rw [e]
    unfold locVertical
    rw [hv]
    rfl

example : (grid2loc sgTUV exTwo (exDs ["lev", "nav_lon"]) (exDs ["nav_lon"]) .warn : Except G2LErr Nat) = .error (.get .badChoice) ∧
    (grid2loc sgTUV exTwo (exDs ["lev", "alt"]) (exDs ["alt"]) .warn : Except G2LErr Nat) = .error .typeError := by decide +kernel

/-! ## C170: `is_cmap` -/

/-- **C170 is violated**: an option of type `cmap` is never a colormap: the only value accepted is the text `None`, whatever
the colormaps that exist; the name of a colormap and a list of colors raise. -/
theorem C170_cmap_violated {V M F : Type} (zero : F) (toFloat : Str → Option F) (getCmap : CmapArg V → Option M) (value : CmapArg V) :
    (∀ c, isCmap zero toFloat getCmap value ≠ .ok (some c)) ∧
    (isCmap zero toFloat getCmap value = .ok none ↔ value.isNoneText = true) ∧
    (∀ l, value = .list l → isCmap zero toFloat getCmap value = .error .importError) ∧
    (∀ s m, value = .text s → s ≠ "None".toList → getCmap value = some m → isCmap zero toFloat getCmap value = .error (.adapter .attr)) := by
  have key : ∀ o : Option M, ∀ x : Adapter M F, adapterOf zero toFloat o ≠ .ok x := by
    intro o x
    cases o <;> simp [adapterOf, mkAdapter, Except.mapError]
  have kn : ∀ o : Option M, ∀ x : Option (Adapter M F), (adapterOf zero toFloat o).map some ≠ .ok x := by
    intro o x
    cases h : adapterOf zero toFloat o with
    | error e => simp [Except.map]
    | ok y => exact absurd h (key o y)
  have kb : value.isNoneText = false → ∀ x : Option (Adapter M F), isCmap zero toFloat getCmap value ≠ .ok x := by
    intro hb x
    unfold isCmap
    rw [hb]
    cases value with
    | list l => simp
    | text s => simpa using kn _ x
    | other r v => simpa using kn _ x
  have kt : value.isNoneText = true → isCmap zero toFloat getCmap value = .ok none := by
    intro hb
    unfold isCmap
    rw [hb]; rfl
  refine ⟨?_, ⟨?_, kt⟩, ?_, ?_⟩
  · intro c
    cases hb : value.isNoneText with
    | true => rw [kt hb]; simp
    | false => exact kb hb _
  · intro h
    cases hb : value.isNoneText with
    | true => rfl
    | false => exact absurd h (kb hb _)
  · rintro l rfl
    rfl
  · rintro s m rfl hs hm
    have hb : (CmapArg.text s : CmapArg V).isNoneText = false := by
      unfold CmapArg.isNoneText
      rw [beq_eq_false_iff_ne]
      exact hs
    unfold isCmap
    rw [hb]
    simp only [Bool.false_eq_true, if_false]
    rw [hm]
    rfl

example : isCmap (V := Nat) (0 : Int) (fun _ => some 1) (fun _ => some "m") (.text "viridis".toList) = .error (.adapter .attr) := by rfl

/-! ## C171: `auto_format` -/

theorem formatInPlace_name {sg : SG} {cat : CfCat} {o : FOpts} {k : Str} {attrs : Attrs} {r : Option Str × Attrs} {new : Option Str}
    (h : formatInPlace sg cat o (some k) attrs = .ok (r, new)) : r.1 = some k := by
  unfold formatInPlace at h
  cases hu : usedName sg cat o (some k) attrs with
  | error e => rw [hu] at h; exact absurd h (by simp)
  | ok u =>
    rw [hu] at h
    cases u with
    | none =>
      simp only [Except.ok.injEq, Prod.mk.injEq] at h
      rw [← h.1]
    | some ns =>
      obtain ⟨n, spec⟩ := ns
      obtain ⟨nn, patch, -, -, h3, -⟩ := formatWith_inv h
      simpa using sgFormat_name sg _ _ _ _ _ _ _ _ _ h3

/-- **C171**: a variable of a dataset is formatted in the dataset as the array is alone: `auto_format(ds)` and
`auto_format(ds[name])` give the variable the same name, dimensions, attributes and data, and likewise for each of its
coordinates. `cs` are the coordinates of the array, some of those of the dataset, on its dimensions; dimensions that have
the name of a variable or a coordinate have it among them (xarray). This is with `standardize=True` (see `C171_standardize_violated`). -/
theorem C171_alone_partial {α} (sg : SG) (vcat ccat : CfCat) (loc : LocArg) (std : Bool) (ds ds' : FDs α)
    (hn : ((ds.vars ++ ds.coords).map (·.1)).Nodup) (h : autoFormatDs sg vcat ccat loc std ds = .ok ds')
    (i : Nat) (k : Str) (v : FVar α) (hi : ds.vars[i]? = some (some k, v))
    (cs : List (Option Str × FVar α)) (hcs : cs.Sublist ds.coords)
    (hdim : ∀ d ∈ v.dims, d ∈ (ds.vars ++ ds.coords).map (·.1) → d ∈ cs.map (·.1)) (hcd : ∀ p ∈ cs, ∀ d ∈ p.2.dims, d ∈ v.dims)
    (a' : FArr α) (ha : autoFormatArr sg vcat ccat loc true ⟨some k, v, cs⟩ = .ok a') :
    ds'.vars[i]? = some (a'.name, a'.var) ∧
    ∀ (j l : Nat) (c : Str) (u : FVar α), cs[j]? = some (some c, u) → ds.coords[l]? = some (some c, u) →
      a'.coords[j]? = ds'.coords[l]? ∧ a'.coords[j]?.isSome := by
  obtain ⟨vs, m1, ws, m2, h1, h2, hv, hc, -⟩ := formatDataset_inv h
  obtain ⟨-, a2, a3, a4⟩ := formatVars_index sg vcat loc false _ _ _ h1
  obtain ⟨-, b2⟩ := formatCoords_index sg ccat loc true false [] _ _ _ h2
  obtain ⟨-, b3, b4⟩ := formatCoords_spec sg ccat loc true false [] _ _ _ h2
  obtain ⟨r, new, xs, m, g1, g2, g3, g4, g5, g6, g7, -⟩ := formatDataVar_inv ha
  obtain ⟨-, c2⟩ := formatCoords_index sg ccat loc true false [] _ _ _ g2
  obtain ⟨-, c3, c4⟩ := formatCoords_spec sg ccat loc true false [] _ _ _ g2
  rw [List.map_append, List.nodup_append] at hn
  obtain ⟨hn1, hn2, hn3⟩ := hn
  have hcn : (cs.map (·.1)).Nodup := List.Nodup.sublist (hcs.map _) hn2
  have hcsub : ∀ d, d ∈ cs.map (·.1) → d ∈ ds.coords.map (·.1) := fun d hd => (hcs.map _).subset hd
  have hkm : some k ∈ ds.vars.map (·.1) := List.mem_map_of_mem (f := (·.1)) (List.mem_of_getElem? hi)
  -- the two renamings agree on the names of the array
  have agree : ∀ d : Option Str, (d ∈ (ds.vars ++ ds.coords).map (·.1) → d ∈ cs.map (·.1)) → newKey m d = newKey (m1 ++ m2) d := by
    intro d hd
    cases d with
    | none => rfl
    | some d =>
      by_cases hin : some d ∈ cs.map (·.1)
      · obtain ⟨p, hp, e⟩ := List.mem_map.1 hin
        obtain ⟨pk, pv⟩ := p
        have e : pk = some d := e
        subst e
        obtain ⟨r1, n1, q1, q2, -⟩ := c4 hcn d pv hp
        obtain ⟨r2, n2, q3, q4, -⟩ := b4 hn2 d pv (hcs.subset hp)
        have q13 := q1.symm.trans q3
        simp only [Except.ok.injEq, Prod.mk.injEq] at q13
        rw [newKey_some q2, newKey_some (new := n1) (by rw [lookupS_append, a3 d (fun hh => hn3 _ hh _ (hcsub _ hin) rfl), q4, q13.2]; rfl)]
      · have hout : some d ∉ (ds.vars ++ ds.coords).map (·.1) := fun hh => hin (hd hh)
        rw [List.map_append, List.mem_append, not_or] at hout
        rw [newKey_other (c3 d hin), newKey_other (by rw [lookupS_append, a3 d hout.1, b3 d hout.2]; rfl)]
  have agreeV : ∀ w : FVar α, (∀ d ∈ w.dims, d ∈ v.dims) → renameVar m w = renameVar (m1 ++ m2) w := by
    intro w hw
    unfold renameVar
    have : w.dims.map (newKey m) = w.dims.map (newKey (m1 ++ m2)) := List.map_congr_left (fun d hd => agree d (hdim d (hw d hd)))
    rw [this]
  refine ⟨?_, ?_⟩
  · obtain ⟨r', new', j1, j2⟩ := a2 i (some k) v hi
    obtain ⟨r2, new2, j1', j3⟩ := a4 hn1 k v (List.mem_of_getElem? hi)
    have e1 := j1.symm.trans g1
    have e2 := j1'.symm.trans g1
    simp only [Except.ok.injEq, Prod.mk.injEq] at e1 e2
    rw [e2.2] at j3
    have hname : a'.name = newKey (m1 ++ m2) (some k) := by
      rw [g3]
      by_cases ht : truthyName new = true
      · rw [if_pos ht]
        rw [if_pos ht] at j3
        rw [newKey_some (new := new) (by rw [lookupS_append, j3]; rfl)]
      · rw [if_neg ht] at j3 ⊢
        rw [newKey_other (by rw [lookupS_append, j3, b3 k (fun hh => hn3 _ hkm _ hh rfl)]; rfl)]
        exact formatInPlace_name g1
    have hvar : a'.var = renameVar (m1 ++ m2) { v with attrs := r'.2 } := by
      rw [← agreeV { v with attrs := r'.2 } (fun d hd => hd), e1.1]
      cases hav : a'.var with
      | mk d t x =>
        rw [hav] at g4 g5 g6
        simp only at g4 g5 g6
        rw [g4, g5, g6]; rfl
    rw [hv, List.getElem?_map, j2, hname, hvar]
    rfl
  · intro j l c u hj hl
    obtain ⟨r1, n1, q1, q2⟩ := c2 j (some c) u hj
    obtain ⟨r2, n2, q3, q4⟩ := b2 l (some c) u hl
    have q13 := q1.symm.trans q3
    simp only [Except.ok.injEq, Prod.mk.injEq] at q13
    have hmem := List.mem_of_getElem? hj
    have ek : newKey m (some c) = newKey (m1 ++ m2) (some c) := agree (some c) (fun _ => List.mem_map_of_mem (f := (·.1)) hmem)
    have ev : renameVar m { u with attrs := r1.2 } = renameVar (m1 ++ m2) { u with attrs := r2.2 } := by
      rw [agreeV { u with attrs := r1.2 } (fun d hd => hcd _ hmem d hd), q13.1]
    have ea : a'.coords[j]? = some (newKey m (some c), renameVar m { u with attrs := r1.2 }) := by
      rw [g7, List.getElem?_map, q2]; rfl
    refine ⟨?_, by rw [ea]; rfl⟩
    rw [ea, hc, List.getElem?_map, q4, ek, ev]
    rfl

/-- a dataset with the temperature of the examples -/
def exTempDs : FDs Nat := ⟨[(exTemp.name, exTemp.var)], exTemp.coords⟩

example : ∃ a ds, autoFormatDs {} exVars defaultCoords .keep true exTempDs = .ok ds ∧ autoFormatArr {} exVars defaultCoords .keep true exTemp = .ok a ∧
    ds.vars.map (·.1) = [some "temp_t".toList] ∧ a.name = some "temp_t".toList ∧ a.coords.map (·.1) = [some "lon".toList, some "time".toList] ∧
    ((exTempDs.vars ++ exTempDs.coords).map (·.1)).Nodup ∧
    (∀ d ∈ exTemp.var.dims, d ∈ (exTempDs.vars ++ exTempDs.coords).map (·.1) → d ∈ exTemp.coords.map (·.1)) ∧
    (∀ p ∈ exTemp.coords, ∀ d ∈ p.2.dims, d ∈ exTemp.var.dims) := by
  refine ⟨_, _, rfl, rfl, ?_, ?_, ?_, ?_, ?_, ?_⟩ <;> decide +kernel

/-- **C171 is violated**: `standardize` has no effect on a dataset: a long name that is left as it is with `standardize=False` by
`auto_format(da)` is changed by `auto_format(ds)`. -/
theorem C171_standardize_violated :
    (∃ a, autoFormatArr {} exVars defaultCoords .keep false exTemp = .ok a ∧ lookupS "long_name".toList a.var.attrs = some (.str "SST".toList)) ∧
    (∃ ds, autoFormatDs {} exVars defaultCoords .keep false exTempDs = .ok ds ∧ ds.vars.map (fun p => lookupS "long_name".toList p.2.attrs) = [some (.str "Sst".toList)]) ∧
    ∀ {α : Type} (sg : SG) (vcat ccat : CfCat) (loc : LocArg) (ds : FDs α), autoFormatDs sg vcat ccat loc false ds = autoFormatDs sg vcat ccat loc true ds := by
  refine ⟨⟨_, rfl, ?_⟩, ⟨_, rfl, ?_⟩, fun _ _ _ _ _ => rfl⟩ <;> decide +kernel

end Xoa
