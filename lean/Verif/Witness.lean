import Verif.CfBuiltinAxisProps
import Verif.CellaveStepsProps
import Verif.ClosestProps
import Verif.ErodeDefaultProps
import Verif.CfgManyProps
import Verif.FilterApproxProps
import Verif.CfMatchProps

/-!
# More cases that meet the hypotheses

Applications of theorems to concrete data, for the theorems that have no such case beside them.
-/

namespace Xoa

theorem loaded_spec (x : Str) (h : x ∈ loadedCoords.map (·.1)) : ∃ spec, (x, spec) ∈ loadedCoords := by
  obtain ⟨⟨a, b⟩, h1, h2⟩ := List.mem_map.1 h
  exact ⟨b, h2 ▸ h1⟩

/-- C174: `DEPTH` with `axis = "Z"` and `units = "m"` -/
example : matchAny {} loadedCoords .any (mkObj "DEPTH" [("axis", .str "Z".toList), ("units", .str "m".toList)]) = .error .typeError := by
  obtain ⟨spec, hspec⟩ := loaded_spec "depth".toList (by decide +kernel)
  refine C174_axis_violated "depth".toList spec hspec "depth".toList (List.mem_cons_self ..) ?_ (by decide) _ "DEPTH".toList rfl (Or.inl (by decide +kernel))
    (by decide +kernel) "Z".toList (by decide +kernel) (by decide +kernel) (Or.inr ⟨"m".toList, by decide +kernel⟩) ?_
  · have : ∀ t ∈ coordNamesTaken, t.1 ≠ "depth".toList := by decide +kernel
    exact fun y hy => this _ hy rfl
  · intro t ht
    have e : DObj.get (mkObj "DEPTH" [("axis", .str "Z".toList), ("units", .str "m".toList)]) "units".toList = some (.str "m".toList) := by decide +kernel
    rw [e] at ht
    injection ht with ht
    injection ht with ht
    subst ht
    decide +kernel

/-- C174: `Lat_u` with `axis = "Y"` and `units = "degrees_north"` -/
example : matchAny {} loadedCoords .any (mkObj "Lat_u" [("axis", .str "Y".toList), ("units", .str "degrees_north".toList)]) = .ok (some "lat".toList) := by
  obtain ⟨spec, hspec⟩ := loaded_spec "lat".toList (by decide +kernel)
  exact C174_horizontal "lat".toList "y".toList (by decide) spec hspec "lat".toList (List.mem_cons_self ..) _ "Lat_u".toList rfl
    (Or.inr ⟨"u".toList, by unfold isLoc; decide +kernel, by decide +kernel⟩) (by decide +kernel) (Or.inr ⟨"Y".toList, by decide +kernel, by decide +kernel⟩)
    (Or.inr ⟨"degrees_north".toList, by decide +kernel, fun _ => by decide +kernel⟩)

/-- C192: three valid cells, the middle of which is an output cell -/
example : ∃ r, (cellave1d ⟨1, 3, fun _ i => some i⟩ ⟨1, 4, fun _ i => i⟩ ⟨1, 2, fun _ i => 1 + i⟩ false .no).get 0 0 = some r ∧
    (cellave1d ⟨1, 3, fun _ i => some i⟩ ⟨1, 4, fun _ i => i⟩ ⟨1, 2, fun _ i => 1 + i⟩ true .no).get 0 0 = some r := by
  refine C192_covered _ _ _ ⟨le_refl _, by decide, by decide, ?_, ?_⟩ 0 0 (by decide) (by decide) ⟨fun i _ => by simp, by norm_num, by norm_num, by norm_num⟩
  · intro r i _ _; push_cast; linarith
  · intro r i _ _; push_cast; linarith

/-- C26: one valid datum in a 2 x 3 array, and a target that masks nothing -/
example : ∃ N, ∀ fuel, N ≤ fuel → ∃ r, erodeMaskUntil (eData [[none, none, none], [none, none, some 9]])
    ⟨["y", "x"], [2, 3], fun _ => false⟩ (.da (shapiroKernel ["y", "x"])) fuel = some (.ok r) :=
  C26_default_2d _ ⟨by decide, by decide⟩ "y" "x" (by decide) rfl _ ⟨by decide, by decide⟩ rfl rfl (fun d => if d = "y" then 1 else 2) (by decide) 9 (by decide +kernel)

/-- C206: the exact convolution of three data, one of which is missing, is within 0 of the mean of the available ones -/
example : |(3 : ℚ) - availSum (fData [some 1, none, some 5]) (fKer [1, 2, 1]) [1] / availWeight (fData [some 1, none, some 5]) (fKer [1, 2, 1]) [1]| ≤ 2000000 * 0 * 5 := by
  have hr : ∃ r, convolveNdA conv (fData [some 1, none, some 5]) (fKer [1, 2, 1]) true = .ok r ∧ r.val [1] = some 3 := by
    cases h : convolveNdA conv (fData [some 1, none, some 5]) (fKer [1, 2, 1]) true with
    | error e =>
      have : (convolveNdA conv (fData [some 1, none, some 5]) (fKer [1, 2, 1]) true).toOption.map (fun r => r.val [1]) = some (some 3) := by decide +kernel
      rw [h] at this; simp [Except.toOption] at this
    | ok r =>
      have : (convolveNdA conv (fData [some 1, none, some 5]) (fKer [1, 2, 1]) true).toOption.map (fun r => r.val [1]) = some (some 3) := by decide +kernel
      rw [h] at this
      exact ⟨r, rfl, by simpa [Except.toOption] using this⟩
  obtain ⟨r, hr, hx⟩ := hr
  refine (C206_mean_missing conv 0 (le_refl _) (by norm_num) conv_within _ r (fKer [1, 2, 1]) (fKer_nonneg _ (by decide)) (by decide +kernel) hr 5 (by norm_num) ?_
    ⟨[1], (mem_positions _ _).1 (by decide), rfl⟩ [1] ((mem_positions _ _).1 (by decide)) 3 hx).2
  intro q v hq hv
  have : ∀ q ∈ positions [3], ∀ v ∈ (fData [some 1, none, some 5]).val q, |v| ≤ 5 := by decide +kernel
  exact this q ((mem_positions _ _).2 hq) v hv

/-- C44: an array whose units are false -/
example : ∃ b, matchCrits {} .any (mkObj "foo" [("units", .other false), ("standard_name", .str "latitude".toList)])
    [("units".toList, .list ["m".toList]), ("standard_name".toList, .list ["longitude".toList]), ("axis".toList, .none_)] = .ok b := by
  refine C44_match_total_partial {} .any _ _ (fun t => by simp) ?_
  intro c hc
  simp only [List.mem_cons, List.not_mem_nil, or_false] at hc
  rcases hc with rfl | rfl | rfl
  · exact Or.inr ⟨by simp, Or.inr ⟨by decide +kernel, by decide, by decide, by decide⟩⟩
  · exact Or.inr ⟨by simp, Or.inl ⟨"latitude".toList, by decide +kernel⟩⟩
  · exact Or.inl (by decide +kernel)

end Xoa
