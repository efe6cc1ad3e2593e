import Verif.Misc
import Mathlib.Analysis.SpecialFunctions.Trigonometric.DerivHyp
import Mathlib.Tactic.Linarith
import Mathlib.Tactic.FieldSimp
import Mathlib.Tactic.Ring

/-!
# Model of the terrain following coordinate formulas (xoa/sigma.py)

The formulas are evaluated at one point of the grid (xarray broadcasts them by dimension name);
the dimensions themselves only matter for the in-place operations, see `inplaceAdd`. Numbers are
real numbers; `none` stands for a result that is not finite (division by zero).
-/

namespace Xoa

/-- a floating point result, `none` when it is not finite -/
abbrev FVal := Option ℝ

/-- the `cache` dictionary -/
abbrev SCache := List (String × FVal)

inductive SigErr
  | keyError
  | sigmaError
  deriving DecidableEq, Repr

/-- `atmosphere_sigma_coordinate`, xoa/sigma.py:57-93 -/
def atmosphereSigma (sig ps ptop : ℝ) : ℝ := sig * (ps - ptop) + ptop

/-- `ocean_sigma_coordinate`, xoa/sigma.py:96-132 -/
def oceanSigma (sig ssh bathy : ℝ) : ℝ := sig * (bathy + ssh) + ssh

/-- `get_cs`, xoa/sigma.py:135-162. The argument `cs_type` is not used by the code. -/
noncomputable def getCs (s a b : ℝ) (_csType : Option String := none) : FVal :=
  if Real.sinh a = 0 ∨ 2 * Real.tanh (1 / 2 * a) = 0 then none
  else some (Real.sinh (s * a) * (1 - b) / Real.sinh a + b * (Real.tanh (a * (s + 1 / 2)) / (2 * Real.tanh (1 / 2 * a)) - 1 / 2))

/-- the stretching value: the given one, or the computed one, xoa/sigma.py:219-221 -/
noncomputable def csValue (sig a b : ℝ) (cs : Option ℝ) (csType : Option String) : FVal :=
  match cs with
  | some c => some c
  | none => getCs sig a b csType

/-- the stretching value of the generic forms, whose control parameters are optional,
xoa/sigma.py:302-306 and 386-390 -/
noncomputable def csValueOpt (sig : ℝ) (a b : Option ℝ) (cs : Option ℝ) (csType : Option String) : Except SigErr FVal :=
  match cs, a, b with
  | some c, _, _ => .ok (some c)
  | none, some a, some b => .ok (getCs sig a b csType)
  | none, _, _ => .error .sigmaError

/-- `if cache:` : a dictionary that is not empty -/
def cacheHit : Option SCache → Bool
  | some (_ :: _) => true
  | _ => false

/-- `cache[key]` -/
def cacheGet (cache : Option SCache) (key : String) : Except SigErr FVal :=
  match lookupK key (cache.getD []) with
  | some v => .ok v
  | none => .error .keyError

/-- `if isinstance(cache, dict): cache.update(...)` -/
def cacheUpdate (cache : Option SCache) (kv : List (String × FVal)) : Option SCache :=
  cache.map (fun d => kv.foldl (fun d p => setK p.1 p.2 d) d)

/-- `ocean_s_coordinate`, xoa/sigma.py:165-235: the result and the cache after the call -/
noncomputable def oceanS (sig ssh bathy hc a b : ℝ) (cs : Option ℝ) (csType : Option String) (cache : Option SCache) :
    Except SigErr FVal × Option SCache :=
  if cacheHit cache then
    match cacheGet cache "zconst" with
    | .error e => (.error e, cache)
    | .ok z => (.ok (z.map (fun z => (sig + 1) * ssh + z)), cache)
  else
    let zconst : FVal := (csValue sig a b cs csType).map (fun c => sig * hc + c * (bathy - hc))
    (.ok (zconst.map (fun z => (sig + 1) * ssh + z)), cacheUpdate cache [("zconst", zconst)])

/-- `ocean_s_coordinate_g1`, xoa/sigma.py:238-321 -/
noncomputable def oceanSG1 (sig ssh bathy hc : ℝ) (a b : Option ℝ) (cs : Option ℝ) (csType : Option String) (cache : Option SCache) :
    Except SigErr FVal × Option SCache :=
  let final (S Sh1 : FVal) : FVal := S.bind (fun S => Sh1.map (fun Sh1 => S + Sh1 * ssh))
  if cacheHit cache then
    match cacheGet cache "S", cacheGet cache "Sh1" with
    | .ok S, .ok Sh1 => (.ok (final S Sh1), cache)
    | .error e, _ => (.error e, cache)
    | _, .error e => (.error e, cache)
  else match csValueOpt sig a b cs csType with
    | .error e => (.error e, cache)
    | .ok c =>
      let S : FVal := c.map (fun c => sig * hc + c * (bathy - hc))
      let Sh1 : FVal := S.bind (fun S => if bathy = 0 then none else some (S / bathy + 1))
      (.ok (final S Sh1), cacheUpdate cache [("S", S), ("Sh1", Sh1)])

/-- `ocean_s_coordinate_g2`, xoa/sigma.py:324-405 -/
noncomputable def oceanSG2 (sig ssh bathy hc : ℝ) (a b : Option ℝ) (cs : Option ℝ) (csType : Option String) (cache : Option SCache) :
    Except SigErr FVal × Option SCache :=
  let final (S hS : FVal) : FVal := S.bind (fun S => hS.map (fun hS => hS + (S + 1) * ssh))
  if cacheHit cache then
    match cacheGet cache "S", cacheGet cache "hS" with
    | .ok S, .ok hS => (.ok (final S hS), cache)
    | .error e, _ => (.error e, cache)
    | _, .error e => (.error e, cache)
  else match csValueOpt sig a b cs csType with
    | .error e => (.error e, cache)
    | .ok c =>
      let S : FVal := c.bind (fun c => if hc + bathy = 0 then none else some ((sig * hc + c * bathy) / (hc + bathy)))
      let hS : FVal := S.map (fun S => S * bathy)
      (.ok (final S hS), cacheUpdate cache [("S", S), ("hS", hS)])

/-! ### dimensions -/

/-- dimensions of the result of an operation between arrays: those of the first, then the other
ones of the second (xarray broadcasting) -/
def bcastDims (d e : List String) : List String := d ++ e.filter (fun x => x ∉ d)

/-- `x += y`: xarray refuses an in-place operation that changes the dimensions of `x` -/
def inplaceAdd (d e : List String) : Option (List String) := if bcastDims d e = d then some d else none

/-- dimensions of the constant part of `ocean_s_coordinate`, with a given stretching array,
xoa/sigma.py:224-225; `none` is an exception -/
def oceanSDims (sig bathy hc cs : List String) : Option (List String) :=
  inplaceAdd (bcastDims sig hc) (bcastDims cs (bcastDims bathy hc))

end Xoa
