import Verif.CoordsProps
import Mathlib.Algebra.BigOperators.Group.List.Basic
import Mathlib.Algebra.Order.BigOperators.Group.List

namespace Xoa

/-! ## Row-major ranks -/

/-- the position is inside the array -/
def InShape : List Nat → List Nat → Prop
  | [], [] => True
  | n :: ns, i :: is => i < n ∧ InShape ns is
  | _, _ => False

theorem ravel_lt (ns is : List Nat) (h : InShape ns is) : ravel ns is < ns.prod := by
  induction ns generalizing is with
  | nil => cases is <;> simp_all [InShape, ravel]
  | cons n ns ih =>
    cases is with
    | nil => simp [InShape] at h
    | cons i is =>
      obtain ⟨h1, h2⟩ := h
      have := ih is h2
      simp only [ravel, List.prod_cons]
      calc i * ns.prod + ravel ns is < i * ns.prod + ns.prod := by omega
        _ = (i + 1) * ns.prod := by rw [Nat.add_mul, Nat.one_mul]
        _ ≤ n * ns.prod := Nat.mul_le_mul_right _ h1

theorem unravel_ravel (ns is : List Nat) (h : InShape ns is) : unravel ns (ravel ns is) = is := by
  induction ns generalizing is with
  | nil => cases is <;> simp_all [InShape, unravel]
  | cons n ns ih =>
    cases is with
    | nil => simp [InShape] at h
    | cons i is =>
      obtain ⟨h1, h2⟩ := h
      have hlt := ravel_lt ns is h2
      have hpos : 0 < ns.prod := by omega
      simp only [ravel, unravel]
      rw [Nat.mul_comm, Nat.mul_add_div hpos, Nat.div_eq_of_lt hlt, Nat.mul_add_mod, Nat.mod_eq_of_lt hlt, ih is h2]
      simp

theorem ravel_append (ns ms is js : List Nat) (h : is.length = ns.length) :
    ravel (ns ++ ms) (is ++ js) = ravel ns is * ms.prod + ravel ms js := by
  induction ns generalizing is with
  | nil =>
    have : is = [] := by simpa using h
    simp [this, ravel]
  | cons n ns ih =>
    cases is with
    | nil => simp at h
    | cons i is =>
      simp only [List.cons_append, ravel, List.prod_append]
      rw [ih is (by simpa using h), Nat.add_mul, Nat.mul_assoc, Nat.add_assoc]

theorem inShape_append (ns ms is js : List Nat) (h1 : InShape ns is) (h2 : InShape ms js) : InShape (ns ++ ms) (is ++ js) := by
  induction ns generalizing is with
  | nil => cases is <;> simp_all [InShape]
  | cons n ns ih =>
    cases is with
    | nil => simp [InShape] at h1
    | cons i is => exact ⟨h1.1, ih is h1.2⟩

theorem inShape_map (L : List String) (S pos : String → Nat) (h : ∀ d ∈ L, pos d < S d) : InShape (L.map S) (L.map pos) := by
  induction L with
  | nil => trivial
  | cons x xs ih => exact ⟨h x (by simp), ih (fun d hd => h d (by simp [hd]))⟩

theorem ravel_single (n j : Nat) : ravel [n] [j] = j := by simp [ravel]

/-! ## An array brought to the layout `L ++ [w]` -/

/-- `x'` holds the values of `x`, with dimensions `L` then `w`, of sizes `S` along `L` -/
structure Aligned (x x' : LArr V) (L : List String) (w : String) (S : String → Nat) : Prop where
  ok : x'.Ok
  dims : x'.dims = L ++ [w]
  vals : ∀ pos, x'.at pos = x.at pos
  wsize : x'.size w = x.size w
  sizes : ∀ d ∈ L, x'.size d = S d

theorem Aligned.shape {x x' : LArr V} {L w S} (h : Aligned x x' L w S) : x'.shape = L.map S ++ [x.size w] := by
  rw [shape_eq x' h.ok, h.dims, List.map_append]
  congr 1
  · exact List.map_congr_left h.sizes
  · simp [h.wsize]

theorem Aligned.notMem {x x' : LArr V} {L w S} (h : Aligned x x' L w S) : w ∉ L ∧ L.Nodup := by
  have := h.ok.nodup
  rw [h.dims] at this
  have h2 := List.nodup_append.1 this
  exact ⟨fun hw => h2.2.2 w hw w (by simp) rfl, h2.1⟩

/-- position with the coordinate along `w` replaced -/
def setPos (pos : String → Nat) (w : String) (j : Nat) : String → Nat := fun x => if x = w then j else pos x

theorem map_setPos (L : List String) (pos : String → Nat) (w : String) (j : Nat) (h : w ∉ L) : L.map (setPos pos w j) = L.map pos := by
  apply List.map_congr_left
  intro d hd
  unfold setPos
  rw [if_neg (by rintro rfl; exact h hd)]

/-- the flattened array has one row per position along `L`, in row-major order -/
theorem Aligned.flat {x x' : LArr V} {L w S} (h : Aligned x x' L w S) (hw : 0 < x.size w) :
    ∃ m, x'.flat2 = .ok m ∧ m.nx = (L.map S).prod ∧ m.ny = x.size w ∧
      ∀ pos : String → Nat, (∀ d ∈ L, pos d < S d) → ∀ j : Nat, j < x.size w →
        m.get (ravel (L.map S) (L.map pos) : Nat) (j : Nat) = x.at (setPos pos w j) := by
  have hsh := h.shape
  have hlast : x'.shape.getLastD 0 = x.size w := by rw [hsh]; simp [List.getLastD_eq_getLast?]
  refine ⟨⟨x'.shape.dropLast.prod, x.size w, fun i j => x'.val (unravel x'.shape (i.toNat * x.size w + j.toNat))⟩, ?_, ?_, rfl, ?_⟩
  · unfold LArr.flat2
    simp only [hlast]
    rw [if_neg (by omega)]
  · show x'.shape.dropLast.prod = _
    rw [hsh]; simp
  · intro pos hp j hj
    show x'.val _ = _
    simp only [Int.toNat_natCast]
    have hr : ravel (L.map S) (L.map pos) * x.size w + j = ravel (L.map S ++ [x.size w]) (L.map pos ++ [j]) := by
      rw [ravel_append _ _ _ _ (by simp), ravel_single]; simp
    rw [hr, hsh, unravel_ravel]
    · rw [← h.vals]
      unfold LArr.at
      rw [h.dims, List.map_append, map_setPos _ _ _ _ h.notMem.1]
      simp [setPos]
    · exact inShape_append _ _ _ _ (inShape_map L S pos hp) ⟨hj, trivial⟩

/-- rows of an array whose dimensions are the last ones of `L` are repeated every `rows` rows -/
theorem ravel_mod_suffix (L1 L2 : List String) (S pos : String → Nat) (hp : ∀ d ∈ L2, pos d < S d) :
    ravel ((L1 ++ L2).map S) ((L1 ++ L2).map pos) % (L2.map S).prod = ravel (L2.map S) (L2.map pos) := by
  rw [List.map_append, List.map_append, ravel_append _ _ _ _ (by simp), Nat.mul_comm, Nat.mul_add_mod]
  exact Nat.mod_eq_of_lt (ravel_lt _ _ (inShape_map L2 S pos hp))

theorem prod_map_pos (L : List String) (S pos : String → Nat) (hp : ∀ d ∈ L, pos d < S d) : 0 < (L.map S).prod := by
  have := ravel_lt _ _ (inShape_map L S pos hp)
  omega

/-! ## Broadcasting -/

theorem broadcast_dims (a o : LArr V) (dim0 dim1 w : String) (M N : List String) (hw : w = dim0 ∨ w = dim1)
    (hM : o.dims.filter (fun d => d ≠ dim0 ∧ d ≠ dim1) = M)
    (hN : a.dims.filter (fun d => d ≠ dim0 ∧ d ≠ dim1 ∧ d ∉ o.dims) = N)
    (hwa : w ∈ a.dims) (hx : ∀ d ∈ a.dims, d = dim0 ∨ d = dim1 → d = w) :
    (a.broadcastLike o dim0 dim1).dims = M ++ N ++ [w] := by
  unfold LArr.broadcastLike
  dsimp only
  rw [hM, hN]
  congr 1
  by_cases h : dim0 = dim1
  · subst h
    have : w = dim0 := by tauto
    subst this
    simp [hwa]
  · rw [if_neg h]
    rcases hw with rfl | rfl
    · have h1 : dim1 ∉ a.dims := fun hd => h (hx dim1 hd (Or.inr rfl)).symm
      simp [hwa, h1]
    · have h1 : dim0 ∉ a.dims := fun hd => h (hx dim0 hd (Or.inl rfl))
      simp [hwa, h1]

theorem broadcast_mem (a o : LArr V) (dim0 dim1 d : String) :
    d ∈ (a.broadcastLike o dim0 dim1).dims ↔ d ∈ a.dims ∨ (d ∈ o.dims ∧ d ≠ dim0 ∧ d ≠ dim1) := by
  unfold LArr.broadcastLike
  simp only [List.mem_append, List.mem_filter, decide_eq_true_eq]
  by_cases h0 : d = dim0 <;> by_cases h1 : d = dim1 <;> by_cases h2 : d ∈ o.dims <;> by_cases h3 : d ∈ a.dims <;>
    by_cases h4 : dim0 = dim1 <;> simp_all

theorem broadcast_at (a o : LArr V) (dim0 dim1 : String) (pos : String → Nat) :
    (a.broadcastLike o dim0 dim1).at pos = a.at pos := by
  have hm : ∀ d ∈ a.dims, d ∈ (a.broadcastLike o dim0 dim1).dims := fun d hd => (broadcast_mem a o dim0 dim1 d).2 (Or.inl hd)
  unfold LArr.at
  show a.val (a.dims.map (look (a.broadcastLike o dim0 dim1).dims ((a.broadcastLike o dim0 dim1).dims.map pos))) = _
  congr 1
  apply List.map_congr_left
  intro d hd
  exact look_map _ _ _ (hm d hd)

theorem broadcast_size (a o : LArr V) (dim0 dim1 d : String) (h : d ∈ (a.broadcastLike o dim0 dim1).dims) :
    (a.broadcastLike o dim0 dim1).size d = if d ∈ a.dims then a.size d else o.size d := by
  unfold LArr.size
  show look (a.broadcastLike o dim0 dim1).dims ((a.broadcastLike o dim0 dim1).dims.map (fun d => if d ∈ a.dims then a.size d else o.size d)) d = _
  exact look_map _ _ _ h

theorem broadcast_len (a o : LArr V) (dim0 dim1 : String) :
    (a.broadcastLike o dim0 dim1).shape.length = (a.broadcastLike o dim0 dim1).dims.length := by
  unfold LArr.broadcastLike
  simp

end Xoa
