import Verif.Coords
import Mathlib.Tactic.Tauto
import Mathlib.Tactic.ByContra
import Mathlib.Data.List.Nodup

namespace Xoa

/-! ## Specification: values and sizes by name -/

/-- value of the array at a position given by name, whatever the order of its dimensions -/
def LArr.at {α} (a : LArr α) (pos : String → Nat) : α := a.val (a.dims.map pos)

/-- the 1-D row of the array through a named position, along a dimension -/
def LArr.line (a : LArr V) (d : String) (pos : String → Nat) : Row :=
  ⟨a.size d, fun i => a.at (fun x => if x = d then i.toNat else pos x)⟩

/-! ## Lookups -/

theorem look_map (ds : List String) (f : String → Nat) (d : String) (h : d ∈ ds) : look ds (ds.map f) d = f d := by
  induction ds with
  | nil => simp at h
  | cons x xs ih =>
    simp only [List.map_cons, look]
    split
    · rename_i e; rw [e]
    · rename_i e; exact ih (by simpa [e] using h)

theorem look_append_left (ds ds' : List String) (is is' : List Nat) (d : String) (hl : is.length = ds.length) (h : d ∈ ds) :
    look (ds ++ ds') (is ++ is') d = look ds is d := by
  induction ds generalizing is with
  | nil => simp at h
  | cons x xs ih =>
    cases is with
    | nil => simp at hl
    | cons i is =>
      simp only [List.cons_append, look]
      split
      · rfl
      · rename_i e
        exact ih is (by simpa using hl) (by simpa [e] using h)

theorem look_append_right (ds ds' : List String) (is is' : List Nat) (d : String) (hl : is.length = ds.length) (h : d ∉ ds) :
    look (ds ++ ds') (is ++ is') d = look ds' is' d := by
  induction ds generalizing is with
  | nil =>
    have : is = [] := by simpa using hl
    simp [this]
  | cons x xs ih =>
    cases is with
    | nil => simp at hl
    | cons i is =>
      simp only [List.mem_cons, not_or] at h
      simp only [List.cons_append, look, if_neg h.1]
      exact ih is (by simpa using hl) h.2

theorem map_look (ds : List String) (idx : List Nat) (hn : ds.Nodup) (hl : idx.length = ds.length) : ds.map (look ds idx) = idx := by
  induction ds generalizing idx with
  | nil => simp at hl; simp [hl]
  | cons x xs ih =>
    cases idx with
    | nil => simp at hl
    | cons i is =>
      rw [List.nodup_cons] at hn
      simp only [List.map_cons, look, if_true, List.cons.injEq, true_and]
      rw [← ih is hn.2 (by simpa using hl)]
      apply List.map_congr_left
      intro d hd
      rw [if_neg (by rintro rfl; exact hn.1 hd)]
      rw [ih is hn.2 (by simpa using hl)]

theorem permute_at {α} (a : LArr α) (ds : List String) (h : ∀ d ∈ a.dims, d ∈ ds) (pos : String → Nat) :
    (a.permute ds).at pos = a.at pos := by
  unfold LArr.at LArr.permute
  dsimp only
  congr 1
  apply List.map_congr_left
  intro d hd
  exact look_map ds pos d (h d hd)

theorem permute_size {α} (a : LArr α) (ds : List String) (d : String) (h : d ∈ ds) : (a.permute ds).size d = a.size d := by
  unfold LArr.size LArr.permute
  exact look_map ds _ d h

theorem permute_ok {α} (a : LArr α) (ds : List String) (h : ds.Nodup) : (a.permute ds).Ok := ⟨h, by simp [LArr.permute]⟩

theorem shape_eq {α} (a : LArr α) (h : a.Ok) : a.shape = a.dims.map a.size := (map_look a.dims a.shape h.nodup h.len).symm

/-- successful `xarray` transposition -/
theorem xrTranspose_ok {α} (a : LArr α) (ds : List (Option String)) (full : List String)
    (hf : (if ds = [] then a.dims.reverse else ds.flatMap (infixOne a.dims ds)) = full)
    (hn : full.Nodup) (h1 : ∀ d, d ∈ full ↔ d ∈ a.dims) : xrTranspose a ds = .ok (a.permute full) := by
  unfold xrTranspose
  simp only [hf]
  rw [if_pos ⟨hn, fun d hd => (h1 d).1 hd, fun d hd => (h1 d).2 hd⟩]

theorem xrTranspose_at {α} (a r : LArr α) (ds : List (Option String)) (h : xrTranspose a ds = .ok r) :
    r.Ok ∧ (∀ d, d ∈ r.dims ↔ d ∈ a.dims) ∧ (∀ d ∈ a.dims, r.size d = a.size d) ∧ ∀ pos, r.at pos = a.at pos := by
  unfold xrTranspose at h
  generalize (if ds = [] then a.dims.reverse else ds.flatMap (infixOne a.dims ds)) = full at h
  dsimp only at h
  split at h
  · rename_i hc
    simp only [Except.ok.injEq] at h
    subst h
    exact ⟨permute_ok _ _ hc.1, fun d => ⟨hc.2.1 d, hc.2.2 d⟩, fun d hd => permute_size a _ d (hc.2.2 d hd),
      fun pos => permute_at a _ hc.2.2 pos⟩
  · cases h

theorem flatMap_infix_some (dims : List String) (ds0 : List (Option String)) (ds : List String) :
    (ds.map some).flatMap (infixOne dims ds0) = ds := by
  induction ds with
  | nil => rfl
  | cons x xs ih => simp [infixOne, ih]

theorem some_mem_map (d : String) (l : List String) : some d ∈ l.map some ↔ d ∈ l := by simp

theorem flatMap_infix_ell (dims pre post : List String) :
    (pre.map some ++ none :: post.map some).flatMap (infixOne dims (pre.map some ++ none :: post.map some)) =
      pre ++ dims.filter (fun d => d ∉ pre ++ post) ++ post := by
  rw [List.flatMap_append, List.flatMap_cons, flatMap_infix_some, flatMap_infix_some]
  simp [infixOne]

/-! ## Expansion -/

theorem expand_ok {α} (a : LArr α) (ha : a.Ok) (new : List (String × Nat)) (hn : (new.map (·.1)).Nodup)
    (hd : ∀ d ∈ new.map (·.1), d ∉ a.dims) : (a.expandDims new).Ok := by
  refine ⟨?_, by simp [LArr.expandDims, ha.len]⟩
  unfold LArr.expandDims
  exact List.Nodup.append hn ha.nodup (by intro d h1 h2; exact hd d h1 h2)

theorem expand_at {α} (a : LArr α) (new : List (String × Nat)) (pos : String → Nat) : (a.expandDims new).at pos = a.at pos := by
  unfold LArr.at LArr.expandDims
  simp

theorem expand_size_old {α} (a : LArr α) (new : List (String × Nat)) (d : String) (hd : d ∉ new.map (·.1)) :
    (a.expandDims new).size d = a.size d := by
  unfold LArr.size LArr.expandDims
  exact look_append_right _ _ _ _ _ (by simp) hd

theorem look_pairs (l : List (String × Nat)) (sz : String → Nat) (d : String) (hd : d ∈ l.map (·.1))
    (h : ∀ p ∈ l, p.2 = sz p.1) : look (l.map (·.1)) (l.map (·.2)) d = sz d := by
  have : l.map (·.2) = (l.map (·.1)).map sz := by
    rw [List.map_map]
    apply List.map_congr_left
    intro p hp
    exact h p hp
  rw [this]
  exact look_map _ _ _ hd

theorem expand_size_new {α} (a : LArr α) (new : List (String × Nat)) (sz : String → Nat) (d : String) (hd : d ∈ new.map (·.1))
    (h : ∀ p ∈ new, p.2 = sz p.1) : (a.expandDims new).size d = sz d := by
  unfold LArr.size LArr.expandDims
  dsimp only
  rw [look_append_left _ _ _ _ _ (by simp) hd]
  exact look_pairs new sz d hd h

/-! ## The scan of `transpose` -/

/-- requested names that are kept, xoa/coords.py:273-290 -/
def keptDim {α} (a : LArr α) (mode : TMode) : Option String → Bool
  | none => true
  | some d => d ∈ a.dims || (mode = .insert || mode = .resize)

structure ScanInv {α} (a : LArr α) (mode : TMode) (sizes : String → Option Nat) (done : List (Option String))
    (s : List (Option String) × List (String × Nat) × Bool) : Prop where
  odims : s.1 = done.filter (keptDim a mode)
  ell : s.2.2 = true ↔ none ∈ done
  nodup : (s.2.1.map (·.1)).Nodup
  size : ∀ p ∈ s.2.1, p.2 = newSize mode sizes p.1
  names : ∀ d, d ∈ s.2.1.map (·.1) ↔ some d ∈ done ∧ d ∉ a.dims ∧ (mode = .insert ∨ mode = .resize)

theorem scan_step {α} (a : LArr α) (mode : TMode) (sizes : String → Option Nat) (done : List (Option String))
    (s : List (Option String) × List (String × Nat) × Bool) (h : ScanInv a mode sizes done s) (x : Option String) :
    ScanInv a mode sizes (done ++ [x]) (transposeStep a mode sizes s x) := by
  cases x with
  | none =>
    refine ⟨?_, ?_, h.nodup, h.size, ?_⟩
    · have hk : keptDim a mode none = true := rfl
      simp [transposeStep, h.odims, List.filter_append, hk]
    · simp [transposeStep]
    · intro d; simp only [transposeStep]; rw [h.names]; simp
  | some d =>
    simp only [transposeStep]
    split
    · rename_i hd
      refine ⟨?_, ?_, h.nodup, h.size, ?_⟩
      · simp [h.odims, List.filter_append, keptDim, hd]
      · simp [h.ell]
      · intro e
        dsimp only
        rw [h.names]
        simp only [List.mem_append, List.mem_singleton, Option.some.injEq]
        constructor
        · tauto
        · rintro ⟨h1 | h1, h2, h3⟩
          · exact ⟨h1, h2, h3⟩
          · subst h1; exact absurd hd h2
    · rename_i hd
      split
      · rename_i hm
        have hk : keptDim a mode (some d) = true := by
          simp only [keptDim]
          rcases hm with hm | hm <;> simp [hm]
        refine ⟨?_, ?_, ?_, ?_, ?_⟩
        · simp [h.odims, List.filter_append, hk]
        · simp [h.ell]
        · dsimp only
          unfold setDim
          split
          · exact h.nodup
          · rename_i hx
            rw [List.map_append]
            exact List.Nodup.append h.nodup (by simp) (by intro e h1 h2; simp at h2; subst h2; exact hx h1)
        · intro p hp
          dsimp only at hp
          unfold setDim at hp
          split at hp
          · exact h.size p hp
          · rcases List.mem_append.1 hp with hp | hp
            · exact h.size p hp
            · simp at hp; subst hp; rfl
        · intro e
          dsimp only
          have hn := h.names e
          unfold setDim
          split
          · rename_i hx
            rw [hn]
            simp only [List.mem_append, List.mem_singleton, Option.some.injEq]
            constructor
            · tauto
            · rintro ⟨h1 | h1, h2, h3⟩
              · exact ⟨h1, h2, h3⟩
              · subst h1; exact ⟨((h.names e).1 hx).1, h2, h3⟩
          · rw [List.map_append, List.mem_append, hn]
            simp only [List.mem_append, List.mem_singleton, Option.some.injEq, List.map_cons, List.map_nil]
            constructor
            · rintro (h1 | h1)
              · tauto
              · subst h1; exact ⟨Or.inr rfl, hd, hm⟩
            · tauto
      · rename_i hm
        have hk : keptDim a mode (some d) = false := by
          simp only [keptDim]
          simp only [not_or] at hm
          simp [hd, hm.1, hm.2]
        refine ⟨?_, ?_, h.nodup, h.size, ?_⟩
        · simp [h.odims, List.filter_append, hk]
        · simp [h.ell]
        · intro e
          rw [h.names]
          tauto

theorem scan_inv {α} (a : LArr α) (mode : TMode) (sizes : String → Option Nat) (dims : List (Option String)) :
    ScanInv a mode sizes dims (dims.foldl (transposeStep a mode sizes) ([], [], false)) := by
  have key : ∀ (l done : List (Option String)) s, ScanInv a mode sizes done s →
      ScanInv a mode sizes (done ++ l) (l.foldl (transposeStep a mode sizes) s) := by
    intro l
    induction l with
    | nil => intro done s h; simpa using h
    | cons x xs ih =>
      intro done s h
      have := ih (done ++ [x]) _ (scan_step a mode sizes done s h x)
      simpa using this
  have := key dims [] ([], [], false) ⟨rfl, by simp, by simp, by simp, by simp⟩
  simpa using this

end Xoa
