import Verif.SigmaTerms
import Verif.CfFormat

/-!
# Model of `get_sigma_terms` and `decode_cf_sigma` for a whole dataset (xoa/sigma.py:466-640)

`SigmaTerms.lean` has one sigma variable and stops at the call of the formula. Here the dataset has any number of sigma variables, which
are those that `cfspecs.search(ds, 'sig', loc=loc, single=False)` gives (xoa/sigma.py:513, modelled in `CfAccess.lean`), and the heights
are added to the dataset. Values of arrays are given by named positions: transposing an array (xoa/coords.py:208-300, `C17`) only changes the
order of its dimensions. The following behaviour of xarray is taken from its documentation and source: the result of an operation on
arrays of different names has no name and no attribute; setting a variable of a dataset to an array drops those of its coordinates that the
dataset already has and that are not dimensions, and is an error when one of its coordinates is a data variable of the dataset.
-/

namespace Xoa

/-- a variable found by the search: its name and its attributes `standard_name` and `formula_terms` -/
structure SigFound where
  name : Str
  standardName : Option Str
  formulaTerms : Option Str

/-- the body of the loop on the sigma variables, xoa/sigma.py:517-548: the location and the terms -/
def sigLocTerms (sg : SG) (dataVars : List Str) (s : SigFound) : Except STErr (Option Str × List (Str × Str)) :=
  match s.standardName with
  | none => .error .sigmaError
  | some sn =>
    let r := parseAttr sg .standardName sn
    (getSigmaTerms dataVars ⟨s.name, some r.1, s.formulaTerms⟩).map fun t => (r.2, t)

/-- `terms[loc] = subterms`, xoa/sigma.py:550 -/
def setLoc (k : Option Str) (v : List (Str × Str)) : List (Option Str × List (Str × Str)) → List (Option Str × List (Str × Str))
  | [] => [(k, v)]
  | (k', v') :: r => if k = k' then (k, v) :: r else (k', v') :: setLoc k v r

/-- the loop on the sigma variables, xoa/sigma.py:514-550: the terms and `subterms`, those of the last variable -/
def sigTermsLoop (sg : SG) (dataVars : List Str) :
    List (Option Str × List (Str × Str)) → Option (List (Str × Str)) → List SigFound → Except STErr (List (Option Str × List (Str × Str)) × Option (List (Str × Str)))
  | acc, last, [] => .ok (acc, last)
  | acc, _, s :: sigs => (sigLocTerms sg dataVars s).bind fun p => sigTermsLoop sg dataVars (setLoc p.1 p.2 acc) (some p.2) sigs

/-- `get_sigma_terms(ds, loc=None, rename)`, xoa/sigma.py:466-554; `rename` is not used -/
def sigTermsAll (sg : SG) (dataVars : List Str) (_rename : Bool) (sigs : List SigFound) : Except STErr (List (Option Str × List (Str × Str))) :=
  (sigTermsLoop sg dataVars [] none sigs).map Prod.fst

/-- `get_sigma_terms(ds, loc, rename)` with a location, xoa/sigma.py:552-553, where `sigs` are the sigma variables at this location -/
def sigTermsOne (sg : SG) (dataVars : List Str) (_rename : Bool) (sigs : List SigFound) : Except STErr (Option (List (Str × Str))) :=
  (sigTermsLoop sg dataVars [] none sigs).map Prod.snd

/-! ## Decoding -/

inductive DecErr
  | sigmaError
  | attributeError
  | typeError      -- arguments of the formula
  | format         -- name and attributes of the height
  | mergeError     -- xarray
  | valueError     -- operations between arrays
  deriving DecidableEq, Repr

/-- the arguments of the formula functions, required and optional (without `cache`), xoa/sigma.py:57, 96, 165, 238, 324 -/
def sigmaArgs : List (Str × List Str × List Str) :=
  [("atmosphere_sigma_coordinate".toList, ["sig".toList, "ps".toList, "ptop".toList], []),
   ("ocean_sigma_coordinate".toList, ["sig".toList, "ssh".toList, "bathy".toList], []),
   ("ocean_s_coordinate".toList, ["sig".toList, "ssh".toList, "bathy".toList, "hc".toList, "thetas".toList, "thetab".toList], ["cs".toList, "cs_type".toList]),
   ("ocean_s_coordinate_g1".toList, ["sig".toList, "ssh".toList, "bathy".toList, "hc".toList], ["thetas".toList, "thetab".toList, "cs".toList, "cs_type".toList]),
   ("ocean_s_coordinate_g2".toList, ["sig".toList, "ssh".toList, "bathy".toList, "hc".toList], ["thetas".toList, "thetab".toList, "cs".toList, "cs_type".toList])]

/-- the outcome of the call of the formula with these arguments, apart from its values: python checks the arguments, and the generic forms need the stretching or its
two parameters (xoa/sigma.py:302-305, 386-389) -/
def sigmaCall (type : Str) (kwargs : List (Str × Str)) : Except DecErr Unit :=
  match lookupS type sigmaArgs with
  | none => .error .attributeError
  | some (req, opt) =>
    if ¬ (∀ k ∈ req, k ∈ kwargs.map (·.1)) ∨ ¬ (∀ p ∈ kwargs, p.1 ∈ req ++ opt) then .error .typeError
    else if "thetas".toList ∈ opt ∧ "cs".toList ∉ kwargs.map (·.1) ∧ ("thetas".toList ∉ kwargs.map (·.1) ∨ "thetab".toList ∉ kwargs.map (·.1)) then .error .sigmaError
    else .ok ()

/-- an array with values at named positions -/
structure HArr (α : Type) where
  dims : List Str
  attrs : Attrs
  val : (Str → Nat) → α

/-- the CF name of the result of a formula, xoa/sigma.py:93, 132, 235, 321, 405 -/
def heightName (type : Str) : Str := if type = "atmosphere_sigma_coordinate".toList then "plev".toList else "depth".toList

/-- name and attributes of a height: those of the formula, `format_data_var(z, name, format_coords=False)` (xoa/cf.py:938-1034) where `z` has neither, then
`cfspecs.sglocator.format_dataarray(height, loc)`, xoa/sigma.py:623 -/
def heightLabels (sg : SG) (vcat ccat : CfCat) (type : Str) (loc : Option Str) : Except FErr (Option Str × Attrs) :=
  match formatDataVar (α := Unit) sg vcat ccat { name := some (heightName type) } false [] ⟨none, ⟨[], [], ()⟩, []⟩ with
  | .error e => .error e
  | .ok a => sgFormat sg a.name a.var.attrs (match loc with | none => .keep | some l => .str l) true none [] true false

/-- a dataset: the names and dimensions of its data variables, and its coordinates -/
structure SDs (α : Type) where
  vars : List (Str × List Str)
  coords : List (Str × HArr α)

/-- the loop on the data variables and the end of the loop on the locations, xoa/sigma.py:625-638: the first data variable that has all the dimensions of the height decides of their order -/
def addHeight {α : Type} (ds : SDs α) (name : Str) (h : HArr α) : Except DecErr (SDs α) :=
  match ds.vars.find? (fun v => h.dims.all fun d => decide (d ∈ v.2)) with
  | some v =>
    if name ∈ ds.vars.map (·.1) then .error .mergeError
    else if (lookupS name ds.coords).isSome then .ok ds
    else .ok { ds with coords := ds.coords ++ [(name, { h with dims := v.2.filter fun d => decide (d ∈ h.dims) })] }
  | none => .ok ⟨ds.vars.filter fun v => decide (v.1 ≠ name), setS name h ds.coords⟩

/-- one location, xoa/sigma.py:610-638; `compute type kwargs` is the array that the formula gives, `kwargs` being the names of the variables -/
def decodeLoc {α : Type} (sg : SG) (vcat ccat : CfCat) (compute : Str → List (Str × Str) → HArr α) (ds : SDs α) (p : Option Str × List (Str × Str)) : Except DecErr (SDs α) :=
  let type := (lookupS "type".toList p.2).getD []
  let kwargs := sigmaKwargs p.2
  (sigmaCall type kwargs).bind fun _ =>
    ((heightLabels sg vcat ccat type p.1).mapError fun _ => .format).bind fun l =>
      match l.1 with
      | none => .error .format
      | some name => addHeight ds name { compute type kwargs with attrs := l.2 }

/-- the loop on the locations, xoa/sigma.py:608-638 -/
def decodeLocs {α : Type} (sg : SG) (vcat ccat : CfCat) (compute : Str → List (Str × Str) → HArr α) :
    SDs α → List (Option Str × List (Str × Str)) → Except DecErr (SDs α)
  | ds, [] => .ok ds
  | ds, p :: r => (decodeLoc sg vcat ccat compute ds p).bind fun ds' => decodeLocs sg vcat ccat compute ds' r

/-- `decode_cf_sigma(ds, rename, errors)`, xoa/sigma.py:567-640, where `sigs` are the sigma variables of the dataset; `rename` is not used -/
def decodeDs {α : Type} (sg : SG) (vcat ccat : CfCat) (compute : Str → List (Str × Str) → HArr α) (ds : SDs α) (sigs : List SigFound) (rename : Bool) (errors : ErrMode) : Except DecErr (SDs α) :=
  match sigTermsAll sg (ds.vars.map (·.1)) rename sigs with
  | .error .sigmaError => if errors = .raise then .error .sigmaError else .ok ds
  | .error .attributeError => .error .attributeError
  | .ok terms => decodeLocs sg vcat ccat compute ds terms

end Xoa
