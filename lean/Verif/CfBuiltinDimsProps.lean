import Verif.CfBuiltinProps
import Verif.CfDimsProps
import Verif.SGLocFormatProps

/-!
# Types of the dimensions with the built-in CF specifications
-/

set_option maxRecDepth 20000

namespace Xoa

/-- the built-in dimensions -/
abbrev loadedDims : CfDims := dimsLoaded builtinLoaded

theorem loadedDims_eq : loadedDims = builtinDims := builtin_loaded.2.2.2

/-- the names of dimensions of the built-in specifications whose end is taken for a location -/
def cutDims : List Str := ["nav_lon".toList, "nav_lat".toList, "model_level".toList]

theorem root_lower (a : SGAttr) (s : Str) : lower (parseAttr {} a s).1 = lower (parseAttr {} a (lower s)).1 := by
  unfold parseAttr
  rw [parseRe_lower]
  cases parseRe {} a s with
  | none => simp
  | some p => simp

theorem dims_roots : (builtinDims.all fun p => p.2.all fun d => d.all isWord && !d.isEmpty && lower d == d &&
    ((builtinDims.find? (fun q => decide (lower d ∈ q.2))).map Prod.fst == some p.1) &&
    (cutDims.contains d || ((builtinDims.find? (fun q => decide (lower (parseAttr {} .name d).1 ∈ q.2))).map Prod.fst == some p.1))) = true := by decide +kernel

theorem dims_cut : ∀ d ∈ cutDims, (builtinDims.find? (fun q => decide (lower (parseAttr {} .name d).1 ∈ q.2))) = none := by decide +kernel

/-- **C176, part.** With the built-in specifications, a dimension whose name is one of the names that they know for the type `t` (`x`, `y`, `z`, `t` or `f`), in any case and
with or without a location, has the type `t`, in any array or without array. Missing: `nav_lon`, `nav_lat` and `model_level` (`C176_cut_violated`). -/
theorem C176_known_dims_partial (t : Str) (l : List Str) (ht : (t, l) ∈ loadedDims) (d : Str) (hd : d ∈ l) (dim : Str) (hs : NameText d dim)
    (hcut : lower dim ∉ cutDims) (da : Option DArr) : getDimType {} loadedDims dim da = .ok (some t) := by
  rw [loadedDims_eq] at ht ⊢
  have h := List.all_eq_true.1 (List.all_eq_true.1 dims_roots _ ht) d hd
  rw [Bool.and_eq_true, Bool.and_eq_true, Bool.and_eq_true, Bool.and_eq_true, beq_iff_eq, beq_iff_eq, Bool.or_eq_true, beq_iff_eq] at h
  obtain ⟨⟨⟨⟨hw, hne⟩, hlow⟩, hroot⟩, htext⟩ := h
  have key : (builtinDims.find? (fun q => decide (lower (parseAttr {} .name dim).1 ∈ q.2))).map Prod.fst = some t := by
    rw [root_lower]
    rcases hs with hs | ⟨l, hl, hs⟩
    · rw [hs]
      rcases htext with h | h
      · exact absurd (hs ▸ List.contains_iff_mem.1 h) hcut
      · exact h
    · have hr : isRoot .name d := ⟨by intro e; rw [e] at hne; simp at hne, fun c hc => Or.inl (List.all_eq_true.1 hw c hc)⟩
      have hp := C38_round_trip {} sg0_regular .name d l hr hl (Or.inl rfl) (fun _ => by intro m hm; simp at hm)
      have he : fmt (SG.format {} .name) d l = lower dim := by rw [hs]; simp [fmt, SG.format]
      rw [he] at hp
      rw [hp]
      exact hroot
  unfold getDimType
  simp only
  cases hf : builtinDims.find? (fun q => decide (lower (parseAttr {} .name dim).1 ∈ q.2)) with
  | none => rw [hf] at key; simp at key
  | some p =>
    rw [hf] at key
    simp only [Option.map_some, Option.some.injEq] at key
    simp only [key]

/-- **C176 is violated** for `nav_lon`, `nav_lat` and `model_level`: they are names of the built-in specifications, but their type is unknown without array, and
asking it for an array that has such a dimension raises, unless the array also has a dimension `nav` or `model`. -/
theorem C176_cut_violated (d : Str) (hd : d ∈ cutDims) : (∃ t l, (t, l) ∈ loadedDims ∧ d ∈ l) ∧ getDimType {} loadedDims d none = .ok none ∧
    ∀ da : DArr, "nav".toList ∉ da.self.dims → "model".toList ∉ da.self.dims → getDimType {} loadedDims d (some da) = .error .notADim := by
  have hroots : ∀ d ∈ cutDims, (parseAttr {} .name d).1 = "nav".toList ∨ (parseAttr {} .name d).1 = "model".toList := by decide +kernel
  have hin : ∀ d ∈ cutDims, (builtinDims.any fun p => p.2.contains d) = true := by decide +kernel
  rw [loadedDims_eq]
  refine ⟨?_, ?_, ?_⟩
  · obtain ⟨⟨t, l⟩, hm, hc⟩ := List.any_eq_true.1 (hin d hd)
    exact ⟨t, l, hm, List.contains_iff_mem.1 hc⟩
  · unfold getDimType
    simp only [dims_cut d hd]
  · intro da h1 h2
    unfold getDimType
    simp only [dims_cut d hd]
    rw [if_pos]
    rcases hroots d hd with h | h <;> rw [h] <;> assumption

example : (loadedDims.any fun p => p.1 == "x".toList && p.2.contains "ni".toList) = true ∧ NameText "ni".toList "NI_u".toList ∧ lower "NI_u".toList ∉ cutDims := by
  refine ⟨by rw [loadedDims_eq]; decide +kernel, Or.inr ⟨"u".toList, ⟨by decide, by decide⟩, by decide⟩, by decide⟩

end Xoa
