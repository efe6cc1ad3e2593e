import Verif.Color

/-!
# C120, C121: colormap adapter
-/

namespace Xoa

/-- what `get_dict` gives for a `CmapAdapter(cmap, specs)` after a history of calls to `set_vlim` -/
def adapterRun {M F : Type} (zero full : F) (toFloat : Str → Option F) (crop : M → F → F → F → Option M) (cmap : M) (specs : Option Str)
    (calls : List (Option F × Option F)) : Except CmErr (Option M × Option F × Option F) :=
  match mkAdapter zero toFloat cmap specs with
  | .error e => .error e
  | .ok a => match setVlims zero full a calls with
    | .error e => .error e
    | .ok b => adapterDict crop b

theorem setVlims_pivot {M F : Type} (zero full : F) (cmap : M) (x : F) (calls : List (Option F × Option F)) (lo hi : Option F) :
    setVlims zero full (⟨cmap, lo, hi, .pivot x⟩ : Adapter M F) calls = .ok ⟨cmap, (calls.getLastD (lo, hi)).1, (calls.getLastD (lo, hi)).2, .pivot x⟩ := by
  induction calls generalizing lo hi with
  | nil => rfl
  | cons c calls ih =>
    unfold setVlims setVlim
    dsimp only
    rw [ih]
    cases calls <;> rfl

theorem setVlims_cycle {M F : Type} (zero full : F) (cmap : M) (x : F) (calls : List (Option F × Option F)) (a b : Option F) (h : calls ≠ []) :
    setVlims zero full (⟨cmap, a, b, .cycle x⟩ : Adapter M F) calls = .ok ⟨cmap, some zero, some full, .cycle x⟩ := by
  induction calls generalizing a b with
  | nil => exact absurd rfl h
  | cons c calls ih =>
    unfold setVlims setVlim
    dsimp only
    cases calls with
    | nil => rfl
    | cons d calls => exact ih _ _ (by simp)

/-- **C120** (pivot): with `specs="piv<x>"`, the limits are the last ones given to `set_vlim`, and the colormap is cropped
with these limits around `x`; it is returned as it is as long as the limits are not both known. -/
theorem C120_pivot {M F : Type} (zero full : F) (toFloat : Str → Option F) (crop : M → F → F → F → Option M) (cmap : M) (text : Str) (x : F)
    (hx : toFloat text = some x) :
    adapterRun zero full toFloat crop cmap (some ("piv".toList ++ text)) [] = .ok (some cmap, none, none) ∧
    ∀ calls lo hi, (∀ m, crop cmap lo hi x = some m →
        adapterRun zero full toFloat crop cmap (some ("piv".toList ++ text)) (calls ++ [(some lo, some hi)]) = .ok (some m, some lo, some hi)) ∧
      (crop cmap lo hi x = none →
        adapterRun zero full toFloat crop cmap (some ("piv".toList ++ text)) (calls ++ [(some lo, some hi)]) = .error .crop) ∧
      adapterRun zero full toFloat crop cmap (some ("piv".toList ++ text)) (calls ++ [(none, some hi)]) = .ok (some cmap, none, some hi) ∧
      adapterRun zero full toFloat crop cmap (some ("piv".toList ++ text)) (calls ++ [(some lo, none)]) = .ok (some cmap, some lo, none) ∧
      adapterRun zero full toFloat crop cmap (some ("piv".toList ++ text)) (calls ++ [(none, none)]) = .ok (some cmap, none, none) := by
  have mk : mkAdapter zero toFloat cmap (some ("piv".toList ++ text)) = .ok ⟨cmap, none, none, .pivot x⟩ := by
    unfold mkAdapter
    have h1 : "piv".toList.isPrefixOf ("piv".toList ++ text) = true := by
      rw [List.isPrefixOf_iff_prefix]; exact ⟨text, rfl⟩
    have h2 : ("piv".toList ++ text).drop 3 = text := rfl
    dsimp only
    rw [if_pos h1, h2, hx]
  unfold adapterRun
  rw [mk]
  dsimp only
  refine ⟨rfl, fun calls lo hi => ⟨?_, ?_, ?_, ?_, ?_⟩⟩
  · intro m hm
    rw [setVlims_pivot]
    simp [adapterDict, adaptedCmap, hm]
  · intro hm
    rw [setVlims_pivot]
    simp [adapterDict, adaptedCmap, hm]
  all_goals
    rw [setVlims_pivot]
    simp [adapterDict, adaptedCmap]

/-- **C121** (cycle), before `set_vlim`: with `specs="cyc<x>"` the limits are 0 and `x`; **violated** afterwards: the limits are 0
and 360 whatever `x` is, and the colormap is never given. -/
theorem C121_cycle_violated {M F : Type} (zero full : F) (toFloat : Str → Option F) (crop : M → F → F → F → Option M) (cmap : M) (text : Str) (x : F)
    (hx : toFloat text = some x) :
    adapterRun zero full toFloat crop cmap (some ("cyc".toList ++ text)) [] = .ok (none, some zero, some x) ∧
    ∀ calls, calls ≠ [] → adapterRun zero full toFloat crop cmap (some ("cyc".toList ++ text)) calls = .ok (none, some zero, some full) := by
  have mk : mkAdapter zero toFloat cmap (some ("cyc".toList ++ text)) = .ok ⟨cmap, some zero, some x, .cycle x⟩ := by
    unfold mkAdapter
    have h1 : "cyc".toList.isPrefixOf ("cyc".toList ++ text) = true := by
      rw [List.isPrefixOf_iff_prefix]; exact ⟨text, rfl⟩
    have h0 : ¬ "piv".toList.isPrefixOf ("cyc".toList ++ text) = true := by
      rw [List.isPrefixOf_iff_prefix]
      rintro ⟨s, hs⟩
      have := congrArg List.head? hs
      simp at this
    have h2 : ("cyc".toList ++ text).drop 3 = text := rfl
    dsimp only
    rw [if_neg h0, if_pos h1, h2, hx]
  unfold adapterRun
  rw [mk]
  dsimp only
  refine ⟨rfl, fun calls hc => ?_⟩
  rw [setVlims_cycle _ _ _ _ _ _ _ hc]
  rfl

/-- **C121 is violated** without specifications: `CmapAdapter(cmap)` and `CmapAdapter(cmap, None)` always fail. -/
theorem C121_none_violated {M F : Type} (zero full : F) (toFloat : Str → Option F) (crop : M → F → F → F → Option M) (cmap : M) (calls : List (Option F × Option F)) :
    adapterRun zero full toFloat crop cmap none calls = .error .attr := rfl

/-- **C120** (refused): a text of another form, or without number, never gives anything. -/
theorem C120_refused {M F : Type} (zero full : F) (toFloat : Str → Option F) (crop : M → F → F → F → Option M) (cmap : M) (text : Str)
    (h : ∀ x t, toFloat t = some x → text ≠ "piv".toList ++ t ∧ text ≠ "cyc".toList ++ t) (calls : List (Option F × Option F)) :
    ∃ e, adapterRun zero full toFloat crop cmap (some text) calls = .error e := by
  unfold adapterRun mkAdapter
  dsimp only
  by_cases h1 : "piv".toList.isPrefixOf text = true
  · rw [if_pos h1]
    obtain ⟨s, rfl⟩ := List.isPrefixOf_iff_prefix.1 h1
    have h2 : ("piv".toList ++ s).drop 3 = s := rfl
    rw [h2]
    cases hf : toFloat s with
    | none => exact ⟨_, rfl⟩
    | some x => exact absurd rfl (h x s hf).1
  · rw [if_neg h1]
    by_cases h1 : "cyc".toList.isPrefixOf text = true
    · rw [if_pos h1]
      obtain ⟨s, rfl⟩ := List.isPrefixOf_iff_prefix.1 h1
      have h2 : ("cyc".toList ++ s).drop 3 = s := rfl
      rw [h2]
      cases hf : toFloat s with
      | none => exact ⟨_, rfl⟩
      | some x => exact absurd rfl (h x s hf).2
    · rw [if_neg h1]
      cases calls with
      | nil => exact ⟨_, rfl⟩
      | cons c calls => exact ⟨_, rfl⟩

/-- a concrete case: the text is a number written with the character `1` -/
example : adapterRun (0 : Int) 360 (fun t => some (t.length : Int)) (fun (m : List Int) lo hi p => if lo ≤ p ∧ p ≤ hi then some (lo :: p :: hi :: m) else none)
    [7] (some "piv11".toList) [(some 1, none), (some (-3), some 5)] = .ok (some [-3, 2, 5, 7], some (-3), some 5) := by rfl

end Xoa
