import Verif.MiscMergeProps

/-! # Merging nested dictionaries in groups (C94) -/

namespace Xoa

/-- a value is a dictionary -/
def PV.isDict : PV → Bool
  | .dict _ => true
  | _ => false

/-- a value without the contents of its dictionaries -/
def PV.top : PV → PV
  | .dict _ => .dict []
  | v => v

/-- No path leads to a dictionary in one input and to another value in another one (values that are ignored, i.e. `None`
with `skipnones`, do not matter). -/
def SameKinds (o : MergeOpts) (dd : List PD) : Prop :=
  ∀ (p : List String), ∀ d ∈ dd, ∀ e ∈ dd, ∀ v w, getPath p (.dict d) = some v → getPath p (.dict e) = some w →
    counts o v = true → counts o w = true → v.isDict = w.isDict

/-- the values of a key that count -/
def valsK (o : MergeOpts) (k : String) (dd : List PD) : List PV := (valuesOf k dd).filter (counts o)

theorem valsK_append (o : MergeOpts) (k : String) (a b : List PD) : valsK o k (a ++ b) = valsK o k a ++ valsK o k b := by
  unfold valsK valuesOf
  rw [List.filterMap_append, List.filter_append]

theorem mem_valsK {o : MergeOpts} {k : String} {dd : List PD} {v : PV} (h : v ∈ valsK o k dd) :
    ∃ d ∈ dd, lookupK k d = some v ∧ counts o v = true := by
  obtain ⟨h1, h2⟩ := List.mem_filter.1 h
  obtain ⟨d, hd, hv⟩ := List.mem_filterMap.1 h1
  exact ⟨d, hd, hv, h2⟩

/-- the dictionary made of several ones: a single one is taken as it is -/
def groupOf (o : MergeOpts) (h : Heap) : List PD → PD
  | [a] => a
  | ds => (dictMerge o h ds).2

theorem groupOf_two (o : MergeOpts) (h : Heap) (l : List PD) (hl : 2 ≤ l.length) : groupOf o h l = (dictMerge o h l).2 := by
  match l with
  | [] => simp at hl
  | [a] => simp at hl
  | a :: b :: l => rfl

theorem subDicts_map (l : List PD) : subDicts (l.map PV.dict) = l := by
  induction l with
  | nil => rfl
  | cons a l ih => simp [subDicts, ih]

theorem dicts_of_all (l : List PV) (h : ∀ v ∈ l, v.isDict = true) : ∃ ds : List PD, l = ds.map PV.dict := by
  induction l with
  | nil => exact ⟨[], rfl⟩
  | cons v l ih =>
    obtain ⟨ds, rfl⟩ := ih (fun v hv => h v (List.mem_cons_of_mem _ hv))
    have hv := h v List.mem_cons_self
    cases v with
    | dict d => exact ⟨d :: ds, rfl⟩
    | _ => simp [PV.isDict] at hv

section
variable {o : MergeOpts} (hl : o.lists = false) (ht : o.tuples = false) (hov : o.overwriteempty = false) (hs : o.subdicts = true) (h : Heap)
include hl

theorem merge_lookup_nil (dd : List PD) (hn : ∀ d ∈ dd, (d.map (·.1)).Nodup) (k : String) (hv : valsK o k dd = []) :
    lookupK k (dictMerge o h dd).2 = none := by
  unfold dictMerge
  rw [mergeAll_lookup o hl h k dd [] hn, foldl_combine_filter]
  unfold valsK at hv
  rw [hv]; rfl

include hov

include ht in
theorem merge_lookup_plain (dd : List PD) (hn : ∀ d ∈ dd, (d.map (·.1)).Nodup) (k : String) (v : PV) (rest : List PV)
    (hv : valsK o k dd = v :: rest) (hd : v.isDict = false) : lookupK k (dictMerge o h dd).2 = some v := by
  refine C49_first_priority o hl hov h dd hn k v rest hv ?_
  cases v <;> simp_all [PV.plain, PV.isDict]

include hs

theorem merge_lookup_dicts (dd : List PD) (hn : ∀ d ∈ dd, (d.map (·.1)).Nodup) (k : String) (ds : List PD) (hne : ds ≠ [])
    (hds : ∀ d ∈ ds, (d.map (·.1)).Nodup) (hv : valsK o k dd = ds.map PV.dict) :
    lookupK k (dictMerge o h dd).2 = some (.dict (groupOf o h ds)) := by
  cases ds with
  | nil => exact absurd rfl hne
  | cons a ds =>
    rw [C49_subdicts o hl hov hs h dd hn k a (ds.map PV.dict) (hds a List.mem_cons_self) hv, subDicts_map]
    cases ds with
    | nil => rfl
    | cons b ds => rfl

include ht

/-- Grouping some of the inputs changes nothing, at any depth. -/
theorem merge_group (p : List String) : ∀ (xs ys zs : List PD), (∀ d ∈ xs ++ ys ++ zs, PV.WF (.dict d)) →
    SameKinds o (xs ++ ys ++ zs) →
    (getPath p (.dict (dictMerge o h (xs ++ [(dictMerge o h ys).2] ++ zs)).2)).map PV.top =
      (getPath p (.dict (dictMerge o h (xs ++ ys ++ zs)).2)).map PV.top := by
  induction p with
  | nil => intro xs ys zs _ _; rfl
  | cons k p ih =>
    intro xs ys zs hwf hk
    have hn : ∀ d ∈ xs ++ ys ++ zs, (d.map (·.1)).Nodup := by
      intro d hd
      cases hwf d hd with | dict _ h _ => exact h
    have hny : ∀ d ∈ ys, (d.map (·.1)).Nodup := fun d hd => hn d (by simp [hd])
    have hnl : ∀ d ∈ xs ++ [(dictMerge o h ys).2] ++ zs, (d.map (·.1)).Nodup := by
      intro d hd
      simp only [List.append_assoc, List.mem_append, List.mem_singleton] at hd
      rcases hd with hd | hd | hd
      · exact hn d (by simp [hd])
      · subst hd; exact C49_nodup o h ys
      · exact hn d (by simp [hd])
    have one : ∀ v, lookupK k (dictMerge o h ys).2 = some v → counts o v = true → valsK o k [(dictMerge o h ys).2] = [v] := by
      intro v hv hc
      simp [valsK, valuesOf, hv, hc]
    have kinds : ∀ v ∈ valsK o k (xs ++ ys ++ zs), ∀ w ∈ valsK o k (xs ++ ys ++ zs), v.isDict = w.isDict := by
      intro v hv w hw
      obtain ⟨d, hd, hdv, hcv⟩ := mem_valsK hv
      obtain ⟨e, he, hew, hcw⟩ := mem_valsK hw
      refine hk [k] d hd e he v w ?_ ?_ hcv hcw
      · simp [getPath, hdv]
      · simp [getPath, hew]
    have same : lookupK k (dictMerge o h (xs ++ [(dictMerge o h ys).2] ++ zs)).2 = lookupK k (dictMerge o h (xs ++ ys ++ zs)).2 →
        (getPath (k :: p) (.dict (dictMerge o h (xs ++ [(dictMerge o h ys).2] ++ zs)).2)).map PV.top =
          (getPath (k :: p) (.dict (dictMerge o h (xs ++ ys ++ zs)).2)).map PV.top := by
      intro e
      simp only [getPath, e]
    have hvr : valsK o k (xs ++ ys ++ zs) = valsK o k xs ++ valsK o k ys ++ valsK o k zs := by
      rw [valsK_append, valsK_append]
    have hvl : valsK o k (xs ++ [(dictMerge o h ys).2] ++ zs) = valsK o k xs ++ valsK o k [(dictMerge o h ys).2] ++ valsK o k zs := by
      rw [valsK_append, valsK_append]
    by_cases hall : ∀ v ∈ valsK o k (xs ++ ys ++ zs), v.isDict = true
    · -- dictionaries only
      obtain ⟨X, hX⟩ := dicts_of_all (valsK o k xs) (fun v hv => hall v (by rw [hvr]; simp [hv]))
      obtain ⟨Y, hY⟩ := dicts_of_all (valsK o k ys) (fun v hv => hall v (by rw [hvr]; simp [hv]))
      obtain ⟨Z, hZ⟩ := dicts_of_all (valsK o k zs) (fun v hv => hall v (by rw [hvr]; simp [hv]))
      have hR : valsK o k (xs ++ ys ++ zs) = (X ++ Y ++ Z).map PV.dict := by
        rw [hvr, hX, hY, hZ, List.map_append, List.map_append]
      have sub : ∀ a ∈ X ++ Y ++ Z, ∃ d ∈ xs ++ ys ++ zs, lookupK k d = some (.dict a) := by
        intro a ha
        have : PV.dict a ∈ valsK o k (xs ++ ys ++ zs) := by rw [hR]; exact List.mem_map_of_mem ha
        obtain ⟨d, hd, hv, -⟩ := mem_valsK this
        exact ⟨d, hd, hv⟩
      have wfs : ∀ a ∈ X ++ Y ++ Z, PV.WF (.dict a) := by
        intro a ha
        obtain ⟨d, hd, hv⟩ := sub a ha
        cases hwf d hd with | dict _ _ h2 => exact h2 k _ hv
      have nds : ∀ a ∈ X ++ Y ++ Z, (a.map (·.1)).Nodup := by
        intro a ha
        cases wfs a ha with | dict _ h _ => exact h
      have ks : SameKinds o (X ++ Y ++ Z) := by
        intro q a ha b hb v w hv hw
        obtain ⟨d, hd, hda⟩ := sub a ha
        obtain ⟨e, he, heb⟩ := sub b hb
        refine hk (k :: q) d hd e he v w ?_ ?_
        · simpa [getPath, hda] using hv
        · simpa [getPath, heb] using hw
      by_cases hYe : Y = []
      · subst hYe
        have hn0 := merge_lookup_nil hl h ys hny k (by simpa using hY)
        have : valsK o k [(dictMerge o h ys).2] = [] := by simp [valsK, valuesOf, hn0]
        by_cases hXZ : X ++ Z = []
        · apply same
          rw [merge_lookup_nil hl h _ hnl k (by rw [hvl, this, hX, hZ]; simpa using hXZ),
            merge_lookup_nil hl h _ hn k (by rw [hR]; simpa using hXZ)]
        · apply same
          rw [merge_lookup_dicts hl hov hs h _ hnl k (X ++ Z) hXZ (fun d hd => nds d (by simpa using hd))
              (by rw [hvl, this, hX, hZ]; simp),
            merge_lookup_dicts hl hov hs h _ hn k (X ++ Z) hXZ (fun d hd => nds d (by simpa using hd)) (by rw [hR]; simp)]
      · have hyl := merge_lookup_dicts hl hov hs h ys hny k Y hYe (fun d hd => nds d (by simp [hd])) hY
        have hyv := one _ hyl (by simp [counts, PV.isNone])
        have hyn : ((groupOf o h Y).map (·.1)).Nodup := by
          unfold groupOf
          split
          · next a => exact nds a (by simp)
          · exact C49_nodup o h _
        have hL : valsK o k (xs ++ [(dictMerge o h ys).2] ++ zs) = (X ++ [groupOf o h Y] ++ Z).map PV.dict := by
          rw [hvl, hX, hyv, hZ, List.map_append, List.map_append]; rfl
        have e1 := merge_lookup_dicts hl hov hs h _ hnl k (X ++ [groupOf o h Y] ++ Z) (by simp)
          (by
            intro d hd
            simp only [List.append_assoc, List.mem_append, List.mem_singleton] at hd
            rcases hd with hd | hd | hd
            · exact nds d (by simp [hd])
            · subst hd; exact hyn
            · exact nds d (by simp [hd])) hL
        have e2 := merge_lookup_dicts hl hov hs h _ hn k (X ++ Y ++ Z) (by simp [hYe]) nds hR
        by_cases hy1 : ∃ y, Y = [y]
        · obtain ⟨y, rfl⟩ := hy1
          apply same
          rw [e1, e2]; rfl
        · have hg : groupOf o h Y = (dictMerge o h Y).2 := by
            unfold groupOf
            split
            · exact absurd ⟨_, rfl⟩ hy1
            · rfl
          by_cases hXZ : X = [] ∧ Z = []
          · obtain ⟨rfl, rfl⟩ := hXZ
            apply same
            rw [e1, e2]
            simp [groupOf]
          · have hYl : 2 ≤ Y.length := by
              rcases Y with _ | ⟨y, _ | ⟨y', Y⟩⟩
              · exact absurd rfl hYe
              · exact absurd ⟨y, rfl⟩ hy1
              · simp
            have hXl : 1 ≤ X.length + Z.length := by
              rcases X with _ | ⟨x, X⟩
              · rcases Z with _ | ⟨z, Z⟩
                · exact absurd ⟨rfl, rfl⟩ hXZ
                · simp
              · simp; omega
            have g1 : groupOf o h (X ++ [groupOf o h Y] ++ Z) = (dictMerge o h (X ++ [(dictMerge o h Y).2] ++ Z)).2 := by
              rw [hg]
              exact groupOf_two o h _ (by simp; omega)
            have g2 : groupOf o h (X ++ Y ++ Z) = (dictMerge o h (X ++ Y ++ Z)).2 :=
              groupOf_two o h _ (by simp; omega)
            show ((lookupK k _).bind (getPath p)).map PV.top = ((lookupK k _).bind (getPath p)).map PV.top
            rw [e1, e2, g1, g2]
            exact ih X Y Z wfs ks
    · -- other values only
      push Not at hall
      obtain ⟨v0, hv0, hnd⟩ := hall
      have hnd : v0.isDict = false := by simpa using hnd
      have allp : ∀ v ∈ valsK o k (xs ++ ys ++ zs), v.isDict = false := fun v hv => by rw [kinds v hv v0 hv0, hnd]
      apply same
      have look : ∀ dd : List PD, (∀ d ∈ dd, (d.map (·.1)).Nodup) → (∀ v ∈ valsK o k dd, v.isDict = false) →
          lookupK k (dictMerge o h dd).2 = (valsK o k dd).head? := by
        intro dd hn hp
        cases hv : valsK o k dd with
        | nil => exact merge_lookup_nil hl h dd hn k hv
        | cons v rest => exact merge_lookup_plain hl ht hov h dd hn k v rest hv (hp v (by rw [hv]; simp))
      have hys : ∀ v ∈ valsK o k ys, v.isDict = false := fun v hv => allp v (by rw [hvr]; simp [hv])
      have hyl := look ys hny hys
      have hyv : valsK o k [(dictMerge o h ys).2] = (valsK o k ys).head?.toList := by
        cases hv : valsK o k ys with
        | nil =>
          rw [hv] at hyl
          simp [valsK, valuesOf, hyl]
        | cons v rest =>
          rw [hv] at hyl
          have hm : v ∈ valsK o k ys := by rw [hv]; simp
          obtain ⟨_, _, _, hc⟩ := mem_valsK hm
          exact one v hyl hc
      rw [look _ hnl, look _ hn allp, hvl, hvr, hyv]
      · cases valsK o k xs <;> cases valsK o k ys <;> simp
      · intro v hv
        rw [hvl, hyv] at hv
        simp only [List.append_assoc, List.mem_append, Option.mem_toList] at hv
        rcases hv with hv | hv | hv
        · exact allp v (by rw [hvr]; simp [hv])
        · exact hys v (List.mem_of_head? hv)
        · exact allp v (by rw [hvr]; simp [hv])
end

/-- **C94** (associativity): when no path leads to a dictionary in one input and to another value in another, grouping the
inputs of `dict_merge`, for any number of them, changes no value at any depth: at every path both results have nothing, or
both a dictionary, or both the same value. -/
theorem C94_assoc_partial (o : MergeOpts) (hl : o.lists = false) (ht : o.tuples = false) (hov : o.overwriteempty = false)
    (hs : o.subdicts = true) (h : Heap) (xs ys zs : List PD) (hwf : ∀ d ∈ xs ++ ys ++ zs, PV.WF (.dict d))
    (hk : SameKinds o (xs ++ ys ++ zs)) (p : List String) :
    (getPath p (.dict (dictMerge o h (xs ++ [(dictMerge o h ys).2] ++ zs)).2)).map PV.top =
      (getPath p (.dict (dictMerge o h (xs ++ ys ++ zs)).2)).map PV.top :=
  merge_group hl ht hov hs h p xs ys zs hwf hk

/-- in particular for three inputs -/
theorem C94_assoc_three_partial (o : MergeOpts) (hl : o.lists = false) (ht : o.tuples = false) (hov : o.overwriteempty = false)
    (hs : o.subdicts = true) (h : Heap) (a b c : PD) (hwf : ∀ d ∈ [a, b, c], PV.WF (.dict d))
    (hk : SameKinds o [a, b, c]) (p : List String) :
    (getPath p (.dict (dictMerge o h [(dictMerge o h [a, b]).2, c]).2)).map PV.top =
      (getPath p (.dict (dictMerge o h [a, (dictMerge o h [b, c]).2]).2)).map PV.top := by
  have e1 := C94_assoc_partial o hl ht hov hs h [] [a, b] [c] hwf hk p
  have e2 := C94_assoc_partial o hl ht hov hs h [a] [b, c] [] (by simpa using hwf) (by simpa using hk) p
  exact e1.trans e2.symm

/-- **C94** (`uniquify`): two lists at the same key are concatenated and made unique: what comes out has each of their
values once, in the order of first appearance (but it is a generator, not a list). -/
theorem C94_uniquify_partial (o : MergeOpts) (hl : o.lists = true) (hu : o.uniquify = true) (hov : o.overwriteempty = false)
    (h : Heap) (k : String) (r1 r2 : Nat) :
    ∃ l : List Atom, lookupK k (dictMerge o h [[(k, .list r1)], [(k, .list r2)]]).2 = some (.gen l) ∧
      (∀ x : Atom, x ∈ l ↔ x ∈ h r1 ∨ x ∈ h r2) ∧ l.Nodup ∧
      l.Pairwise (fun a b => (h r1 ++ h r2).idxOf a < (h r1 ++ h r2).idxOf b) := by
  refine ⟨gunique (h r1 ++ h r2), ?_, ?_, (C52_gunique _).2⟩
  · simp [dictMerge, mergeAll, mergeItems, mergeItem, mergeVal, lookupK, setK, PV.isNone, hl, hu, hov]
  · intro x
    rw [(C52_gunique _).1 x, List.mem_append]

/-- three nested inputs, with an ignored `None` in the place of a dictionary -/
def exA1 : PD := [("s", .dict [("x", .atom (.int 1))])]
/-- the second one -/
def exA2 : PD := [("s", .none), ("t", .atom (.int 5))]
/-- the third one -/
def exA3 : PD := [("s", .dict [("x", .atom (.int 2)), ("y", .tuple [.int 3])]), ("t", .atom (.int 6))]

/-- the hypotheses of `C94_assoc_partial` are met by the nested example, whose merge is not one of the inputs -/
example : (∀ d ∈ [exA1, exA2, exA3], PV.WF (.dict d)) ∧ SameKinds {} [exA1, exA2, exA3] ∧
    (dictMerge {} (fun _ => []) [exA1, exA2, exA3]).2 =
      [("s", .dict [("x", .atom (.int 1)), ("y", .tuple [.int 3])]), ("t", .atom (.int 5))] := by
  have leaf : ∀ (a b : String) (q : List String) (v w x y : PV), (∀ d, x ≠ .dict d) → (∀ d, y ≠ .dict d) →
      getPath q (.dict [(a, x), (b, y)]) = some v → v.isDict = decide (q = []) := by
    intro a b q v w x y hx hy hv
    match q with
    | [] => simp only [getPath, Option.some.injEq] at hv; subst hv; rfl
    | k :: q =>
      have key : ∀ z : PV, (∀ d, z ≠ .dict d) → getPath q z = some v → v.isDict = false := by
        intro z hz hg
        cases z with
        | dict d => exact absurd rfl (hz d)
        | _ => cases q <;> simp [getPath] at hg <;> (subst hg; rfl)
      simp only [getPath, lookupK] at hv
      by_cases h1 : k = a
      · simp only [h1, if_true, Option.bind_some] at hv; simpa using key x hx hv
      · by_cases h2 : k = b
        · simp only [h2, if_true] at hv
          split at hv
          · simpa using key x hx hv
          · simpa using key y hy hv
        · simp [h1, h2] at hv
  refine ⟨?_, ?_, by simp [exA1, exA2, exA3, dictMerge, mergeAll, mergeItems, mergeItem, mergeVal, initFrom, lookupK, setK, PV.isNone]⟩
  · intro d hd
    have wf1 : ∀ (d : PD), (d.map (·.1)).Nodup → (∀ p ∈ d, ∀ e, p.2 ≠ .dict e) → PV.WF (.dict d) := by
      intro d hn hp
      refine .dict d hn (fun k v hv => ?_)
      have := hp _ (lookupK_mem k v d hv)
      cases v with
      | dict e => exact absurd rfl (this e)
      | none => exact .none
      | atom a => exact .atom a
      | list r => exact .list r
      | tuple l => exact .tuple l
      | gen l => exact .gen l
    have wf2 : ∀ (d : PD), (d.map (·.1)).Nodup → (∀ p ∈ d, PV.WF p.2) → PV.WF (.dict d) :=
      fun d hn hp => .dict d hn (fun k v hv => hp _ (lookupK_mem k v d hv))
    simp only [List.mem_cons, List.not_mem_nil, or_false] at hd
    rcases hd with rfl | rfl | rfl
    · refine wf2 _ (by decide) ?_
      intro p hp
      simp only [exA1, List.mem_cons, List.not_mem_nil, or_false] at hp
      subst hp
      exact wf1 _ (by decide) (by simp)
    · exact wf1 _ (by decide) (by simp [exA2])
    · refine wf2 _ (by decide) ?_
      intro p hp
      simp only [exA3, List.mem_cons, List.not_mem_nil, or_false] at hp
      rcases hp with rfl | rfl
      · exact wf1 _ (by decide) (by simp)
      · exact .atom _
  · have kind : ∀ (p : List String), ∀ d ∈ [exA1, exA2, exA3], ∀ v, getPath p (.dict d) = some v → counts {} v = true →
        v.isDict = decide (p = [] ∨ p = ["s"]) := by
      intro p d hd v hv hc
      match p with
      | [] => simp only [getPath, Option.some.injEq] at hv; subst hv; rfl
      | k :: q =>
        have atomk : ∀ z : PV, (∀ d, z ≠ .dict d) → getPath q z = some v → v.isDict = false := by
          intro z hz hg
          cases z with
          | dict d => exact absurd rfl (hz d)
          | _ => cases q <;> simp [getPath] at hg <;> (subst hg; rfl)
        simp only [List.mem_cons, List.not_mem_nil, or_false] at hd
        by_cases h1 : k = "s"
        · subst h1
          rcases hd with rfl | rfl | rfl
          · have hv : getPath q (.dict [("x", .atom (.int 1))]) = some v := by simpa [exA1, getPath, lookupK] using hv
            have hv' : getPath q (.dict [("x", .atom (.int 1)), ("x", .atom (.int 1))]) = some v ∨ q = [] := by
              cases q with
              | nil => exact Or.inr rfl
              | cons a q =>
                left
                simp only [getPath, lookupK] at hv ⊢
                split <;> simp_all
            rcases hv' with hv' | rfl
            · rw [leaf _ _ q v v _ _ (by simp) (by simp) hv']; simp
            · simp only [getPath, Option.some.injEq] at hv; subst hv; rfl
          · have hv : getPath q .none = some v := by simpa [exA2, getPath, lookupK] using hv
            cases q with
            | nil =>
              simp only [getPath, Option.some.injEq] at hv; subst hv
              simp [counts, PV.isNone] at hc
            | cons a q => simp [getPath] at hv
          · have hv : getPath q (.dict [("x", .atom (.int 2)), ("y", .tuple [.int 3])]) = some v := by
              simpa [exA3, getPath, lookupK] using hv
            rw [leaf _ _ q v v _ _ (by simp) (by simp) hv]; simp
        · by_cases h2 : k = "t"
          · subst h2
            have : v.isDict = false := by
              rcases hd with rfl | rfl | rfl
              · simp [exA1, getPath, lookupK] at hv
              · exact atomk (.atom (.int 5)) (by simp) (by simpa [exA2, getPath, lookupK] using hv)
              · exact atomk (.atom (.int 6)) (by simp) (by simpa [exA3, getPath, lookupK] using hv)
            rw [this]; simp
          · rcases hd with rfl | rfl | rfl <;> simp [exA1, exA2, exA3, getPath, lookupK, h1, h2] at hv
    intro p d hd e he v w hv hw hcv hcw
    rw [kind p d hd v hv hcv, kind p e he w hw hcw]

end Xoa
