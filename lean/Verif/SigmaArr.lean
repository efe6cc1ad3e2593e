import Verif.SigmaFormulaProps

/-!
# Model of the terrain following formulas on whole arrays (xoa/sigma.py:57-405)

`Sigma.lean` has these functions at one point of the grid. Here the arguments are arrays with named dimensions, as given by the user, and the
operations of xarray between arrays are modelled: broadcasting by dimension name, refusal of dimensions of different sizes, refusal of
an in-place operation that would add dimensions to its first operand. Arrays have no index (xarray would select the common labels). A
number is an array without dimension. Without `cache` (see `C31` and `C82` for the cache). The result is not formatted
(`format_data_var(..., format_coords=False)` only sets the name and the attributes).
-/

namespace Xoa

/-- an array: its dimensions with their sizes, and its value at named positions (`none`: not finite, or missing) -/
structure SArr where
  dims : List (Str × Nat)
  val : (Str → Nat) → FVal

/-- the names of the dimensions -/
def SArr.names (x : SArr) : List Str := x.dims.map (·.1)

inductive SAErr
  | valueError
  | sigmaError
  deriving DecidableEq, Repr

/-- the dimensions of the same name have the same size -/
def sameSizes (a b : List (Str × Nat)) : Bool := a.all fun d => b.all fun e => decide (d.1 ≠ e.1 ∨ d.2 = e.2)

/-- dimensions of the result of an operation between arrays: those of the first one, then the other ones of the second one (xarray: `_unified_dims`) -/
def joinDims (a b : List (Str × Nat)) : List (Str × Nat) := a ++ b.filter fun e => decide (e.1 ∉ a.map (·.1))

/-- an operation between two arrays (xarray: `Variable._binary_op`) -/
def SArr.op (f : FVal → FVal → FVal) (a b : SArr) : Except SAErr SArr :=
  if sameSizes a.dims b.dims then .ok ⟨joinDims a.dims b.dims, fun p => f (a.val p) (b.val p)⟩ else .error .valueError

/-- `a += b`, `a /= b`: in place, the dimensions must not change (xarray: `Variable._inplace_binary_op`) -/
def SArr.inplace (f : FVal → FVal → FVal) (a b : SArr) : Except SAErr SArr :=
  (SArr.op f a b).bind fun r => if r.dims = a.dims then .ok r else .error .valueError

/-- a function or an operation with a number, element by element -/
def SArr.map (f : FVal → FVal) (a : SArr) : SArr := ⟨a.dims, fun p => f (a.val p)⟩

def fAdd (x y : FVal) : FVal := x.bind fun a => y.map fun b => a + b
def fSub (x y : FVal) : FVal := x.bind fun a => y.map fun b => a - b
def fMul (x y : FVal) : FVal := x.bind fun a => y.map fun b => a * b
/-- a division by zero does not give a finite number -/
noncomputable def fDiv (x y : FVal) : FVal := x.bind fun a => y.bind fun b => if b = 0 then none else some (a / b)

/-- `atmosphere_sigma_coordinate(sig, ps, ptop)`, xoa/sigma.py:88-90 -/
def atmosphereSigmaA (sig ps ptop : SArr) : Except SAErr SArr :=
  (SArr.op fSub ps ptop).bind fun d => (SArr.op fMul sig d).bind fun p => SArr.inplace fAdd p ptop

/-- `ocean_sigma_coordinate(sig, ssh, bathy)`, xoa/sigma.py:127-129 -/
def oceanSigmaA (sig ssh bathy : SArr) : Except SAErr SArr :=
  (SArr.op fAdd bathy ssh).bind fun d => (SArr.op fMul sig d).bind fun z => SArr.inplace fAdd z ssh

/-- first line of `get_cs`, xoa/sigma.py:160: `np.sinh(s*a) * (1-b) / np.sinh(a)` -/
noncomputable def csFirst (s a b : SArr) : Except SAErr SArr :=
  (SArr.op fMul s a).bind fun sa =>
    (SArr.op fMul (sa.map fun x => x.map Real.sinh) (b.map fun x => x.map fun y => 1 - y)).bind fun n =>
      SArr.op fDiv n (a.map fun x => x.map Real.sinh)

/-- second line of `get_cs`, xoa/sigma.py:161: `b * (np.tanh(a*(s+0.5))/(2*np.tanh(0.5*a))-0.5)` -/
noncomputable def csSecond (s a b : SArr) : Except SAErr SArr :=
  (SArr.op fMul a (s.map fun x => x.map fun y => y + 1 / 2)).bind fun as =>
    (SArr.op fDiv (as.map fun x => x.map Real.tanh) (a.map fun x => x.map fun y => 2 * Real.tanh (1 / 2 * y))).bind fun q =>
      SArr.op fMul b (q.map fun x => x.map fun y => y - 1 / 2)

/-- `get_cs(sig, thetas, thetab)`, xoa/sigma.py:159-162 -/
noncomputable def getCsA (s a b : SArr) : Except SAErr SArr :=
  (csFirst s a b).bind fun x => (csSecond s a b).bind fun y => SArr.inplace fAdd x y

/-- `ocean_s_coordinate(sig, ssh, bathy, hc, thetas, thetab, cs)`, xoa/sigma.py:219-232 -/
noncomputable def oceanSA (sig ssh bathy hc a b : SArr) (cs : Option SArr) : Except SAErr SArr :=
  (cs.elim (getCsA sig a b) Except.ok).bind fun c =>
    (SArr.op fMul sig hc).bind fun z0 =>
      (SArr.op fSub bathy hc).bind fun bh => (SArr.op fMul c bh).bind fun cbh => (SArr.inplace fAdd z0 cbh).bind fun zconst =>
        (SArr.op fMul (sig.map fun x => x.map fun y => y + 1) ssh).bind fun e => SArr.op fAdd e zconst

/-- the number of elements -/
def SArr.size (x : SArr) : Nat := (x.dims.map (·.2)).prod

/-- `None in (thetas, thetab)`, xoa/sigma.py:303 and 387: python compares `None` with each one until one is `None`; the comparison of an array with `None` is an
array, whose truth value is an error when it has several elements (it is false, since its elements are, when it has one or none) -/
def noneIn : List (Option SArr) → Except SAErr Bool
  | [] => .ok false
  | none :: _ => .ok true
  | some x :: l => if 1 < x.size then .error .valueError else noneIn l

/-- the stretching of the generic forms, xoa/sigma.py:302-306 and 386-390 -/
noncomputable def csOptA (sig : SArr) (a b cs : Option SArr) : Except SAErr SArr :=
  match cs with
  | some c => .ok c
  | none => (noneIn [a, b]).bind fun n =>
      if n then .error .sigmaError
      else match a, b with
        | some a, some b => getCsA sig a b
        | _, _ => .error .sigmaError

/-- `ocean_s_coordinate_g1(sig, ssh, bathy, hc, thetas, thetab, cs)`, xoa/sigma.py:292-318 -/
noncomputable def oceanSG1A (sig ssh bathy hc : SArr) (a b cs : Option SArr) : Except SAErr SArr :=
  (csOptA sig a b cs).bind fun c =>
    (SArr.op fMul sig hc).bind fun z0 => (SArr.op fSub bathy hc).bind fun bh => (SArr.op fMul c bh).bind fun cbh =>
      (SArr.op fAdd z0 cbh).bind fun s => (SArr.op fDiv s bathy).bind fun sh =>
        (SArr.op fMul (sh.map fun x => x.map fun y => y + 1) ssh).bind fun e => SArr.op fAdd s e

/-- `ocean_s_coordinate_g2(sig, ssh, bathy, hc, thetas, thetab, cs)`, xoa/sigma.py:376-402 -/
noncomputable def oceanSG2A (sig ssh bathy hc : SArr) (a b cs : Option SArr) : Except SAErr SArr :=
  (csOptA sig a b cs).bind fun c =>
    (SArr.op fMul sig hc).bind fun z0 => (SArr.op fMul c bathy).bind fun cb => (SArr.op fAdd z0 cb).bind fun s0 =>
      (SArr.op fAdd hc bathy).bind fun hb => (SArr.inplace fDiv s0 hb).bind fun s => (SArr.op fMul s bathy).bind fun hs =>
        (SArr.op fMul (s.map fun x => x.map fun y => y + 1) ssh).bind fun e => SArr.op fAdd hs e

end Xoa
