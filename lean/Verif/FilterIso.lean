import Verif.Filter
import Mathlib.Analysis.Real.Sqrt

/-!
# Model of the windows given as values and of the isotropic kernels (xoa/filter.py)

Values are real numbers; `none` is NaN. Window functions are an arbitrary function from a size to values.
-/

namespace Xoa

/-- `np.linspace(0, 1, n)` -/
noncomputable def linspace01 (n : Nat) : List ℝ := (List.range n).map (fun j : Nat => (j : ℝ) / ((n : ℝ) - 1))

/-- `np.interp(x, xp, fp)` from the point `p` on; the values of the ends are used outside -/
noncomputable def npInterp (x : ℝ) (p : ℝ × ℝ) : List (ℝ × ℝ) → ℝ
  | [] => p.2
  | q :: r =>
    if x < q.1 then (if x ≤ p.1 then p.2 else (q.2 - p.2) / (q.1 - p.1) * (x - p.1) + p.2)
    else npInterp x q r

/-- `np.interp(x, xp, fp)`: both must have the same size, and not be empty -/
noncomputable def npInterpL (xp fp : List ℝ) (x : ℝ) : Except CErr ℝ :=
  if xp.length ≠ fp.length then .error .valueError
  else match xp.zip fp with
    | [] => .error .valueError
    | p :: r => .ok (npInterp x p r)

/-- the function returned by `get_window_func(values)`, xoa/filter.py:62-67 -/
noncomputable def windowOfValues (w : List ℝ) (size : Nat) : Except CErr (List ℝ) :=
  if w = [] then .error .valueError else (linspace01 size).mapM (npInterpL (linspace01 w.length) w)

/-- sum of the squared normalised indices, xoa/filter.py:174-180: `0 / 0` is NaN along a dimension of size 1 -/
noncomputable def sumSquares : List Nat → List Nat → Option ℝ
  | w :: ws, i :: is =>
    (sumSquares ws is).bind (fun s => if w = 1 then none else some (((i : ℝ) / ((w : ℝ) - 1) - 1 / 2) ^ 2 + s))
  | _, _ => some 0

/-- an n-D array of real numbers -/
structure RArr where
  shape : List Nat
  val : List Nat → Option ℝ

/-- value of the kernel, xoa/filter.py:180-195; comparisons with NaN are false and the interpolation of NaN is NaN -/
noncomputable def isoVal (n : Nat) (fp : List ℝ) (fill : Option ℝ) : Option ℝ → Option ℝ
  | none => none
  | some s => if 1 / 2 - Real.sqrt s < 0 then fill else (npInterpL (linspace01 n) fp (1 / 2 - Real.sqrt s)).toOption

/-- the interpolation fails when the window has not `n` values, or none, xoa/filter.py:193 -/
noncomputable def isoFrom (shape : List Nat) (n : Nat) (fill : Option ℝ) (fp : List ℝ) : Except CErr RArr :=
  if n ≠ fp.length ∨ fp = [] then .error .valueError else .ok ⟨shape, fun idx => isoVal n fp fill (sumSquares shape idx)⟩

/-- `generate_isotropic_kernel(shape, window_func, fill_value, npt)`, xoa/filter.py:128-197 -/
noncomputable def isoKernel (shape : List Nat) (window : Nat → Except CErr (List ℝ)) (fill : Option ℝ) (npt : Option Nat) : Except CErr RArr :=
  -- :183 max of nothing
  if shape = [] ∧ npt = none then .error .valueError
  else (window (npt.getD (2 * shape.foldl max 0))).bind (isoFrom shape (npt.getD (2 * shape.foldl max 0)) fill)

/-- specification of a kernel along one dimension: a positive size or a non-empty list -/
inductive KI
  | scalar (n : Nat)
  | arr (l : List ℝ)

/-- `np.allclose(a, b)` -/
noncomputable def allClose (a b : List ℝ) : Except CErr Bool :=
  let close := fun x y : ℝ => (open Classical in decide (|x - y| ≤ 1 / 10 ^ 8 + 1 / 10 ^ 5 * |y|))
  match a, b with
  | [x], b => .ok (b.all (close x))
  | a, [y] => .ok (a.all (fun x => close x y))
  | a, b => if a.length ≠ b.length then .error .valueError else .ok ((List.zipWith close a b).all id)

def KI.size : KI → Nat
  | .scalar n => n
  | .arr l => l.length

/-- one isotropic dimension, xoa/filter.py:368-382: its kernel against the first one -/
noncomputable def isoCheck (first : Option KI) (k : KI) : Except CErr KI :=
  match first with
  | none => .ok k
  | some (.scalar n) => match k with
    | .scalar _ => .ok (.scalar n)
    | .arr _ => .error .xoaError
  | some (.arr l) => match k with
    | .scalar _ => .error .xoaError
    | .arr l' => do
      let b ← allClose l' l
      if b then .ok (.arr l) else .error .xoaError

/-- loop on the items of the dictionary, xoa/filter.py:361-382: dimensions and specifications of the orthogonal part, dimensions and
sizes of the isotropic part, and first isotropic specification -/
noncomputable def isoSplit (iso : List String) : List (String × KI) → List (String × KI) → List (String × Nat) → Option KI →
    Except CErr (List (String × KI) × List (String × Nat) × Option KI)
  | [], o, s, f => .ok (o, s, f)
  | (d, k) :: l, o, s, f =>
    if d ∉ iso then isoSplit iso l (o ++ [(d, k)]) s f
    else do
      let f' ← isoCheck f k
      isoSplit iso l o (s ++ [(d, k.size)]) (some f')

/-- `np.tensordot(kernel[..., None], isokernels[None, ...])`, xoa/filter.py:410: with the default `axes=2`, the last two dimensions of the first
array are contracted with the first two of the second one -/
def tensordot2 (a b : RArr) : Except CErr RArr :=
  match a.shape.getLast?, b.shape with
  | some n, m :: ms =>
    if n = 1 ∧ m = 1 then
      .ok ⟨a.shape.dropLast ++ ms, fun idx =>
        match a.val (idx.take (a.shape.length - 1) ++ [0]), b.val (0 :: idx.drop (a.shape.length - 1)) with
        | some x, some y => some (x * y)
        | _, _ => none⟩
    else .error .valueError
  | _, _ => .error .valueError

/-- the window of the isotropic kernel, xoa/filter.py:394-398: the list, if it is one -/
noncomputable def KI.window (window : Nat → Except CErr (List ℝ)) : KI → Nat → Except CErr (List ℝ)
  | .scalar _ => window
  | .arr l => windowOfValues l

/-- merge of the orthogonal and isotropic parts, xoa/filter.py:404-410; there is nothing to make an array of without kernel -/
def mergeParts : Option RArr → Option RArr → Except CErr RArr
  | none, none => .error .valueError
  | some a, none => .ok a
  | none, some b => .ok b
  | some a, some b => tensordot2 a b

/-- the two parts of the kernel and `xr.DataArray(kernel, dims=dims)`, xoa/filter.py:384-418 -/
noncomputable def isoAssemble (window : Nat → Except CErr (List ℝ)) (ortho : List KI → Except CErr RArr) (fill : Option ℝ)
    (r : List (String × KI) × List (String × Nat) × Option KI) : Except CErr (List String × RArr) := do
  let k1 ← if r.1 = [] then Except.ok none else (ortho (r.1.map (·.2))).map some
  let k2 ← r.2.2.elim (Except.ok none) (fun f => (isoKernel (r.2.1.map (·.2)) (f.window window) fill none).map some)
  let k ← mergeParts k1 k2
  if k.shape.length ≠ (r.1.map (·.1) ++ r.2.1.map (·.1)).length then .error .valueError
  else .ok (r.1.map (·.1) ++ r.2.1.map (·.1), k)

/-- `generate_kernel(kernel, data, isotropic, window_func, fill_value)` for a dictionary of sizes and lists, xoa/filter.py:331-418, before
the final transposition. `iso` are the isotropic dimensions (all those of the data for `True`), not empty; `ortho` is the
orthogonal kernel of the other dimensions (see `orthoKernel`). -/
noncomputable def generateKernelIso (window : Nat → Except CErr (List ℝ)) (ortho : List KI → Except CErr RArr) (fill : Option ℝ)
    (spec : List (String × KI)) (iso dims : List String) : Except CErr (List String × RArr) :=
  if ¬ ∀ d ∈ iso, d ∈ dims then .error .xoaError
  else (isoSplit iso spec [] [] none).bind (isoAssemble window ortho fill)

end Xoa
