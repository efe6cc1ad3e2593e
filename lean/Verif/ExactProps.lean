import Verif.RegridProps
import Verif.SigmaProps
import Verif.SigmaTermsProps
import Verif.OptionsProps
import Verif.CfFormatMoreProps
import Verif.SimilarProps
import Verif.ColorProps
import Verif.CfgmPatchProps
import Verif.CfReloadProps

/-! # Where the refuted properties hold (C76, C82, C83, C84, C86, C90, C99, C108, C110, C111, C115, C121) -/

namespace Xoa

/-! ## options of regrid1d -/

/-- **C76** (default options): with `bias` and `tension` null, the hermitian method is `hermit1d` with these options; with
`conserv` false the cell averaging is that of `cellave1d` with this option. -/
theorem C76_defaults_partial (o : RegridOpts) (he : ExtrapKnown o.extrap) (da cin cout : LArr V) (dim0 dim1 : String) :
    (o.bias = 0 → o.tension = 0 → (o.method = .str "hermit".toList ∨ o.method = .str "hermitian".toList ∨ o.method = .num 3) →
      regrid1d o da cin cout dim0 dim1 = regridWith (fun v yi yo => hermit1d v yi yo o.bias o.tension) da cin cout dim0 dim1) ∧
    (o.conserv = false → NamedCellave o.method → ∀ f, flush da cin cout dim0 dim1 = .ok f → 2 ≤ f.coordIn.ny → 2 ≤ f.coordOut.ny →
      regrid1d o da cin cout dim0 dim1 = regridWith (cellaveKernel o.conserv) da cin cout dim0 dim1) := by
  constructor
  · intro hb ht hm
    rw [hb, ht]
    refine C21_method o _ ?_ he da cin cout dim0 dim1
    rcases hm with hm | hm | hm <;> rw [hm]
    · exact .hermit
    · exact .hermitian
    · exact .hermitN
  · intro hc hm f hf h1 h2
    rw [hc]
    exact C21_cellave o hm he da cin cout dim0 dim1 f hf h1 h2

/-! ## caches -/

/-- **C82** (when it holds): the second call with a cache filled by a first one gives the right depth exactly when the parts of the two
depths that do not depend on the sea surface height, which are what the cache keeps, are equal. -/
theorem C82_right_iff_partial (sig sig' ssh ssh' bathy bathy' hc hc' a a' b b' : ℝ) (cs cs' : Option ℝ) (t t' : Option String) (z z' : ℝ)
    (h : depthOf (oceanS sig ssh bathy hc a b cs t none) = some z)
    (h' : depthOf (oceanS sig' ssh' bathy' hc' a' b' cs' t' none) = some z') :
    depthOf (oceanS sig' ssh' bathy' hc' a' b' cs' t' (oceanS sig ssh bathy hc a b cs t (some [])).2) =
        depthOf (oceanS sig' ssh' bathy' hc' a' b' cs' t' none) ↔
      z - (sig + 1) * ssh = z' - (sig' + 1) * ssh' := by
  rw [C82_stale_violated sig sig' ssh ssh' bathy bathy' hc hc' a a' b b' cs cs' t t' z h, h', Option.some.injEq]
  constructor <;> intro e <;> linarith

/-- both cases occur: another sea surface height over the same bottom, and another bottom -/
example : depthOf (oceanS (-1) 0 100 10 0 0 (some (-1)) none none) = some (-100) ∧
    depthOf (oceanS (-1) 2 100 10 0 0 (some (-1)) none none) = some (-100) ∧
    depthOf (oceanS (-1) 2 50 10 0 0 (some (-1)) none none) = some (-50) := by
  simp [depthOf, oceanS, cacheHit, csValue]
  norm_num

/-! ## blanks around formula terms -/

/-- **C83** (when it holds): blanks at the beginning, or at the end, of a formula terms attribute are harmless only if there are none. -/
theorem C83_iff_partial (b : Str) (hb : blanks b) (t : FTerm) (rest : List (Str × FTerm)) (ht : t.ok)
    (hr : ∀ p ∈ rest, blanks p.1 ∧ p.1 ≠ [] ∧ p.2.ok) (hn : ((t :: rest.map (·.2)).map FTerm.key).Nodup) :
    (decodeFormulaTerms (b ++ attrText t rest) = decodeFormulaTerms (attrText t rest) ↔ b = []) ∧
    (decodeFormulaTerms (attrText t rest ++ b) = decodeFormulaTerms (attrText t rest) ↔ b = []) := by
  constructor
  · constructor
    · intro e
      rw [C83_leading_violated b hb t rest ht hr hn, C32_decode t rest ht hr hn] at e
      simp only [List.map_cons, Option.some.injEq, List.cons.injEq, Prod.mk.injEq] at e
      have := congrArg List.length e.1.1
      simp only [List.length_append] at this
      exact List.length_eq_zero_iff.1 (by omega)
    · rintro rfl; rfl
  · constructor
    · intro e
      obtain ⟨init, u, hu⟩ : ∃ init u, t :: rest.map (·.2) = init ++ [u] :=
        ⟨_, _, (List.dropLast_append_getLast (l := t :: rest.map (·.2)) (by simp)).symm⟩
      rw [C83_trailing_violated b hb t rest ht hr hn init u hu, C32_decode t rest ht hr hn, hu] at e
      simp only [List.map_append, List.map_cons, List.map_nil, Option.some.injEq] at e
      have e := List.append_cancel_left e
      simp only [List.cons.injEq, Prod.mk.injEq, and_true, true_and] at e
      have := congrArg List.length e
      simp only [List.length_append] at this
      exact List.length_eq_zero_iff.1 (by omega)
    · rintro rfl; simp

/-! ## options -/

/-- **C84** (when it holds): a context restores the options in force on entry exactly when they are not an empty object. -/
theorem C84_restored_iff_partial (user : Opts) (s : OSt) (hwf : s.wf) (a : Nat) (hc : s.cur = some a)
    (sec : Option Str) (o : List (Str × OVal)) (body : List Stmt) (hinit : (setInit user sec o s).2.1 = false) :
    (exec user (.with_ sec o body) s).1.cur = s.cur ↔ s.at a ≠ [] := by
  constructor
  · intro h he
    rw [C84_empty_violated user s hwf a hc he sec o body hinit, hc] at h
    exact absurd h (by simp)
  · intro hne
    have := (C34_set_options_restores user s hwf a hc hne sec o body hinit).1
    rw [this, hc]

/-- **C86** (known options): an option that exists is given with its value, by its section and name or by `section.name`. -/
theorem C86_known_partial (user : Opts) (s : OSt) (a : Nat) (hc : s.cur = some a) (sec opt : Str) (v : OVal)
    (hv : get2 sec opt (s.at a) = some v) :
    getOption user sec (some opt) s = (s, .val v) ∧
    ∀ flat, splitOption flat = some (sec, opt) → getOption user flat none s = (s, .val v) := by
  constructor
  · unfold getOption; simp only [hc, hv]
  · intro flat hf
    unfold getOption; simp only [hc, hv, hf]

/-- an option that exists -/
example : let s : OSt := { objs := [[("plot".toList, [("cmap".toList, .str "viridis".toList)])]], cur := some 0 }
    get2 "plot".toList "cmap".toList (s.at 0) = some (.str "viridis".toList) ∧ splitOption "plot.cmap".toList = some ("plot".toList, "cmap".toList) := by
  decide +kernel

/-- **C99** (booleans): a boolean option patched with a boolean takes it, in sections without underscores at the ends of their names. -/
theorem C99_bool_partial {S : Type} (specs : List (Str × CT S)) (c p : List (Str × CT PyVal))
    (hcomp : Compatible c p) (path : List Str) (k : Str) (hclean : cleanPath path) (b b' : Bool)
    (hc : leafAt (path ++ [k]) (.sec c) = some (.bool b)) (hp : leafAt (path ++ [k]) (.sec p) = some (.bool b')) :
    leafAt (path ++ [k]) (.sec (patchCfg pyTyping specs c p)) = some (.bool b') := by
  refine C57_patched_same_type pyTyping_lawful specs c p hcomp path k hclean _ hp ?_
  intro u hu
  rw [hc] at hu
  injection hu with hu
  subst hu
  rfl

/-! ## formatting -/

/-- **C108** (`format_coords=False`): the coordinates are then left as they are, and so are the dimensions and the data. -/
theorem C108_not_formatted_partial {α} (sg : SG) (vcat ccat : CfCat) (o : FOpts) (names : List (Str × Str)) (a b : FArr α)
    (h : formatDataVar sg vcat ccat o false names a = .ok b) :
    b.coords = a.coords ∧ b.var.dims = a.var.dims ∧ b.var.data = a.var.data := by
  unfold formatDataVar formatVarCore at h
  cases hi : formatInPlace sg vcat o a.name a.var.attrs with
  | error e => rw [hi] at h; exact absurd h (by simp)
  | ok rn =>
    obtain ⟨r, new⟩ := rn
    rw [hi] at h
    simp only [Bool.false_eq_true, if_false, if_true, Except.ok.injEq] at h
    subst h
    exact ⟨rfl, rfl, rfl⟩

/-- **C108** (datasets, `fill_attrs`): coordinates that match no CF coordinate are left as they are when nothing is renamed. -/
theorem C108_fill_partial {α} (sg : SG) (vcat ccat : CfCat) (loc : LocArg) (ds ds' : FDs α) (h : fillAttrsDs sg vcat ccat loc ds = .ok ds')
    (i : Nat) (k : Option Str) (v : FVar α) (hi : ds.coords[i]? = some (k, v))
    (hu : matchAny sg ccat .any (dobjOf k v.attrs) = .ok none) :
    ∃ v', ds'.coords[i]? = some (k, v') ∧ v'.attrs = v.attrs ∧ v'.dims = v.dims ∧ v'.data = v.data := by
  obtain ⟨-, h2, -, h4⟩ := C103_dataset sg vcat ccat loc ds ds' h
  obtain ⟨v', hv', hm, -⟩ := h4 i k v hi
  have e := congrArg (fun l => l[i]?) h2
  simp only [List.getElem?_map, hi, hv', Option.map_some, Option.some.injEq, Prod.mk.injEq, true_and] at e
  exact ⟨v', hv', hm hu, e.1, e.2⟩

/-- **C110** (datasets): `fill_attrs` of a dataset does return it with its attributes filled; the existing attributes of a variable are
unchanged but for `standard_name` and `long_name`. -/
theorem C110_dataset_partial {α} (sg : SG) (vcat ccat : CfCat) (loc : LocArg) (ds ds' : FDs α) (h : fillAttrsDs sg vcat ccat loc ds = .ok ds')
    (i : Nat) (k : Option Str) (v : FVar α) (hi : ds.vars[i]? = some (k, v)) (n : Str) (spec : CfSpec)
    (hm : matchAny sg vcat .any (dobjOf k v.attrs) = .ok (some n)) (hsp : lookupS n vcat = some spec)
    (hd : (v.attrs.map (·.1)).Nodup) (hs : (spec.attrs.map (·.1)).Nodup) :
    ∃ v', ds'.vars[i]? = some (k, v') ∧
      (∀ key x, lookupS key v.attrs = some x → key ≠ "standard_name".toList → key ≠ "long_name".toList →
        lookupS key v'.attrs = some x) ∧
      (∀ key r x, lookupS key v.attrs = none → lookupS key spec.attrs = some r → firstOf r = some x → sgAttrOf key = none →
        lookupS key v'.attrs = some (.str x)) := by
  obtain ⟨-, -, h3, -⟩ := C103_dataset sg vcat ccat loc ds ds' h
  obtain ⟨v', hv', -, hf⟩ := h3 i k v hi
  have hf := hf n spec hm hsp hd hs
  refine ⟨v', hv', ?_, ?_⟩
  · intro key x hx h1 h2
    exact ((hf key).1 x hx).1 ⟨h1, h2⟩
  · intro key r x hx hr hfo hk
    exact ((hf key).2.1 r x hx hr hfo (fun t ht => by rw [hk] at ht; exact absurd ht (by simp))).1 hk

/-- **C110** (arrays): `fill_attrs` of an array whose CF name is given does return the array, with the same name, dimensions and data,
and with its missing attributes (`FilledBy`). -/
theorem C110_named_partial {α} (sg : SG) (vcat ccat : CfCat) (o : FOpts) (n : Str) (ho : o.name = some n) (hat : o.attrs = .cf) (spec : CfSpec)
    (hsp : lookupS n vcat = some spec) (a : FArr α) (r : FRes α) (hna : a.name ≠ none)
    (hd : (a.var.attrs.map (·.1)).Nodup) (hs : (spec.attrs.map (·.1)).Nodup)
    (h : fillAttrsArr sg vcat ccat o a = .ok r) :
    ∃ b : FArr α, r = .arr b ∧ b.name = a.name ∧ b.var.dims = a.var.dims ∧ b.var.data = a.var.data ∧
      FilledBy sg spec o.loc o.standardize a.var.attrs b.var.attrs ∧
      b.coords.map (fun p => (p.1, p.2.dims, p.2.data)) = a.coords.map (fun p => (p.1, p.2.dims, p.2.data)) := by
  have hf : FormatsAs sg vcat { o with replace := false } a.name a.var.attrs n spec := ⟨hsp, Or.inl ho⟩
  unfold fillAttrsArr formatDataVarKeep formatVarCore at h
  rw [formatInPlace_formats hf] at h
  cases hw : formatWith sg { o with replace := false } false n spec a.name a.var.attrs with
  | error e => rw [hw] at h; exact absurd h (by simp)
  | ok rn =>
    obtain ⟨q, new⟩ := rn
    rw [hw] at h
    have hfill := formatWith_filled hw hat rfl hd hs
    have hname : q.1 = a.name := by
      obtain ⟨nn, patch, h1, h2, h3, -⟩ := formatWith_inv hw
      have hat' : ({ o with replace := false } : FOpts).attrs = .cf := hat
      rw [hat'] at h2
      obtain ⟨hpn, -⟩ := patchOf_lookup sg spec patch hs h2
      obtain ⟨_, -, -, hc⟩ := sgFormat_attrs sg _ _ _ _ _ _ _ _ _ hd hpn h3
      simpa [hna] using hc
    simp only [Bool.false_and, Bool.false_eq_true, if_false, if_true] at h
    cases hcs : formatCoords sg ccat o.loc o.standardize false [] a.coords with
    | error e => rw [hcs] at h; exact absurd h (by simp)
    | ok cm =>
      obtain ⟨cs, m⟩ := cm
      rw [hcs] at h
      simp only [ho, Except.ok.injEq] at h
      subst h
      refine ⟨_, rfl, hname, rfl, rfl, hfill, ?_⟩
      exact (formatCoords_spec sg ccat _ _ _ _ _ _ _ hcs).1

/-- the hypotheses are met -/
example : (match fillAttrsArr {} exVars defaultCoords { name := some "temp".toList } exTemp with
    | .ok (.arr b) => (b.name, lookupS "units".toList b.var.attrs)
    | _ => (none, none)) = (some "temperature_t".toList, some (.str "degrees_celsius".toList)) := by
  decide +kernel

/-- **C111** (when it holds): the list given as `exclude` is left as it is exactly when no extra attribute is given. -/
theorem C111_list_iff_partial (sg : SG) (spec : CfSpec) (select : Option (List Str)) (l : List Str) (loc : LocArg) (multi std : Bool) (extra : Attrs) :
    (getAttrs sg spec select (.list l) loc multi std extra).2 = .list l ↔ extra = [] := by
  rw [(C111_select_violated sg spec select l loc multi std extra).2]
  constructor
  · intro e
    injection e with e
    have := congrArg List.length e
    simp only [List.length_append, List.length_map] at this
    exact List.length_eq_zero_iff.1 (by omega)
  · rintro rfl; simp

/-- **C90** (when it holds): the long names of the parent are all inherited, and the first one of them comes first exactly when it is
the one that is made of the standard name or of the name of the specification. -/
theorem C90_first_iff_partial (c : CfCfg) (hw : WfCfg c) (ha : Acyclic c.ents) (k p : CfKey) (hi : Inherits c.ents k p)
    (raw : CfEntry) (a : List (Str × FV)) (sn : List Str) (hraw : lookupE k c.ents = some raw) (hat : lookupS kAttrs raw = some (.dict a))
    (hln : lookupS kLong a = some (.list [])) (hsn : lookupS kStd a = some (.list sn)) :
    ∃ N, ∀ limit, N ≤ limit → ∃ c' final parent fa pa l l', postProcess limit c = .ok c' ∧
      lookupE k c'.ents = some final ∧ lookupE p c'.ents = some parent ∧ lookupS kAttrs final = some (.dict fa) ∧
      lookupS kAttrs parent = some (.dict pa) ∧ lookupS kLong pa = some (.list l) ∧ lookupS kLong fa = some (.list l') ∧
      (∀ x ∈ l, x ∈ l') ∧ (l'.head? = l.head? ↔ l.head? = some (capitalize (replaceC '_' ' ' (sn.headD k.2)))) := by
  obtain ⟨N, h⟩ := C90_long_name_violated c hw ha k p hi raw a sn hraw hat hln hsn
  refine ⟨N, fun limit hl => ?_⟩
  obtain ⟨c', final, parent, fa, pa, l, h1, h2, h3, h4, h5, h6, h7⟩ := h limit hl
  refine ⟨c', final, parent, fa, pa, l, _, h1, h2, h3, h4, h5, h6, h7, fun x hx => List.mem_cons_of_mem _ hx, ?_⟩
  rw [List.head?_cons]
  exact ⟨fun e => e.symm, fun e => e.symm⟩

/-! ## similar arrays -/

/-- **C115** (scanning an array with its own coordinates): the array found is then a coordinate of the scanned object and is similar, and
`None` means that no coordinate is similar. -/
theorem C115_own_partial (sg : SG) (two : CfTwo) (r : Registry) (coords : List SimArr) (da : SimArr) (res : Option SimArr)
    (h : searchSimilar sg two r ⟨none, coords⟩ da coords = .ok res) :
    (∀ t, res = some t → t ∈ coords ∧ SimilarSpec sg two t da) ∧ (res = none → ∀ t ∈ coords, ¬ SimilarSpec sg two t da) := by
  constructor
  · rintro t rfl
    exact (C115_array_violated sg two r coords coords da coords).2 t h
  · rintro rfl
    change similarLoop sg two r da coords = .ok none at h
    induction coords with
    | nil => intro t ht; exact absurd ht (by simp)
    | cons c cs ih =>
      unfold similarLoop at h
      cases h1 : areSimilar sg two r c da with
      | error e => rw [h1] at h; cases h
      | ok b =>
        rw [h1] at h
        simp only [Except.bind] at h
        cases b with
        | true => simp at h
        | false =>
          simp only [Bool.false_eq_true, if_false] at h
          intro t ht
          rcases List.mem_cons.1 ht with rfl | ht
          · intro hs
            exact absurd ((C114_are_similar_partial sg two r t da false h1).2 hs) (by simp)
          · exact ih h t ht

/-- a coordinate of the array that is similar to it is found, after one that is not -/
example : (searchSimilar sgTUV exTwo regCf ⟨none, [simArr "time" [] true, simArr "lon" [] true]⟩ (simArr "lon" [] false)
    [simArr "time" [] true, simArr "lon" [] true]).map (fun t => t.map (fun t => t.isCoord)) = .ok (some true) := by
  decide +kernel

/-! ## cyclic colormaps -/

/-- **C121** (limits): the limits of a cyclic adapter are 0 and `x` before any `set_vlim`, and afterwards exactly when `x` is the full
circle. -/
theorem C121_limits_iff_partial {M F : Type} (zero full : F) (toFloat : Str → Option F) (crop : M → F → F → F → Option M) (cmap : M) (text : Str) (x : F)
    (hx : toFloat text = some x) (calls : List (Option F × Option F)) :
    (∃ m, adapterRun zero full toFloat crop cmap (some ("cyc".toList ++ text)) calls = .ok (m, some zero, some x)) ↔ calls = [] ∨ x = full := by
  obtain ⟨h1, h2⟩ := C121_cycle_violated zero full toFloat crop cmap text x hx
  constructor
  · rintro ⟨m, e⟩
    by_cases hc : calls = []
    · exact Or.inl hc
    · rw [h2 calls hc] at e
      simp only [Except.ok.injEq, Prod.mk.injEq, Option.some.injEq, true_and] at e
      exact Or.inr e.2.symm
  · rintro (rfl | rfl)
    · exact ⟨_, h1⟩
    · by_cases hc : calls = []
      · subst hc; exact ⟨_, h1⟩
      · exact ⟨_, h2 calls hc⟩

/-- **C97** (when it holds for numbers): a number is answered to be in an enumeration exactly when it is the number of a member and not zero; it is answered not to be in it only for the zero
number of a member, and the question raises exactly when the lookup fails. -/
theorem C97_number_partial (e : EnumDecl) (n : Int) :
    (enumContains e (.num n) = some true ↔ enumGet e (.num n) = some n ∧ n ≠ 0) ∧
    (enumContains e (.num n) = some false ↔ enumGet e (.num n) = some n ∧ n = 0) ∧
    (enumContains e (.num n) = none ↔ enumGet e (.num n) = none) ∧ (enumGet e (.num n) = some n ↔ ∃ s, (s, n) ∈ e) := by
  have he : enumGet e (.num n) = some n ↔ n ∈ e.map (·.2) := by
    simp only [enumGet, enumCall]
    split <;> simp_all
  have hm : n ∈ e.map (·.2) ↔ ∃ s, (s, n) ∈ e := by simp
  refine ⟨?_, ?_, ?_, he.trans hm⟩ <;> simp only [enumContains, enumGet, enumCall] <;> split <;> simp

end Xoa
