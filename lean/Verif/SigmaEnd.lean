import Verif.SigmaDecodeProps
import Verif.SigmaArrProps

/-!
# Model of `decode_cf_sigma` with the values of the variables (xoa/sigma.py:567-640)

In `SigmaDecode.lean` the result of the formula is given. Here it is computed from the arrays of the dataset, with the functions of `SigmaArr.lean`.
-/

namespace Xoa

/-- an error of the formula, as raised by `decode_cf_sigma` -/
def SAErr.toDec : SAErr → DecErr
  | .valueError => .valueError
  | .sigmaError => .sigmaError

/-- a required argument -/
def needArr (arg : Str → Option SArr) (k : Str) : Except DecErr SArr :=
  match arg k with
  | some x => .ok x
  | none => .error .typeError

/-- `getattr(sigma_module, sigma_type)(**kwargs)`, xoa/sigma.py:618-621, with the arrays `arg`; `cache` is an empty dictionary, as if it were not there -/
noncomputable def sigmaFormula (type : Str) (arg : Str → Option SArr) : Except DecErr SArr :=
  (needArr arg "sig".toList).bind fun sig =>
    if type = "atmosphere_sigma_coordinate".toList then
      (needArr arg "ps".toList).bind fun ps => (needArr arg "ptop".toList).bind fun ptop => (atmosphereSigmaA sig ps ptop).mapError SAErr.toDec
    else (needArr arg "ssh".toList).bind fun ssh => (needArr arg "bathy".toList).bind fun bathy =>
      if type = "ocean_sigma_coordinate".toList then (oceanSigmaA sig ssh bathy).mapError SAErr.toDec
      else (needArr arg "hc".toList).bind fun hc =>
        if type = "ocean_s_coordinate".toList then
          (needArr arg "thetas".toList).bind fun a => (needArr arg "thetab".toList).bind fun b => (oceanSA sig ssh bathy hc a b (arg "cs".toList)).mapError SAErr.toDec
        else if type = "ocean_s_coordinate_g1".toList then (oceanSG1A sig ssh bathy hc (arg "thetas".toList) (arg "thetab".toList) (arg "cs".toList)).mapError SAErr.toDec
        else (oceanSG2A sig ssh bathy hc (arg "thetas".toList) (arg "thetab".toList) (arg "cs".toList)).mapError SAErr.toDec

/-- `kwargs[cf_name] = ds[vname]`, xoa/sigma.py:613-615 -/
def sigmaArrays (arrs : List (Str × SArr)) (kwargs : List (Str × Str)) (k : Str) : Option SArr := (lookupS k kwargs).bind fun v => lookupS v arrs

/-- the array without name nor attribute that a formula gives -/
def SArr.toH (r : SArr) : HArr FVal := ⟨r.names, [], r.val⟩

/-- one location, xoa/sigma.py:608-638, with the arrays `arrs` of the data variables -/
noncomputable def decodeLocV (sg : SG) (vcat ccat : CfCat) (arrs : List (Str × SArr)) (ds : SDs FVal) (p : Option Str × List (Str × Str)) : Except DecErr (SDs FVal) :=
  (sigmaCall ((lookupS "type".toList p.2).getD []) (sigmaKwargs p.2)).bind fun _ =>
    (sigmaFormula ((lookupS "type".toList p.2).getD []) (sigmaArrays arrs (sigmaKwargs p.2))).bind fun r => decodeLoc sg vcat ccat (fun _ _ => r.toH) ds p

/-- the loop on the locations -/
noncomputable def decodeLocsV (sg : SG) (vcat ccat : CfCat) (arrs : List (Str × SArr)) : SDs FVal → List (Option Str × List (Str × Str)) → Except DecErr (SDs FVal)
  | ds, [] => .ok ds
  | ds, p :: r => (decodeLocV sg vcat ccat arrs ds p).bind fun ds' => decodeLocsV sg vcat ccat arrs ds' r

/-- `decode_cf_sigma(ds, rename, errors)`, xoa/sigma.py:567-640, for a dataset whose data variables are the arrays `arrs`, where `sigs` are its sigma variables and `coords` its coordinates;
`rename` is not used -/
noncomputable def decodeDsV (sg : SG) (vcat ccat : CfCat) (arrs : List (Str × SArr)) (coords : List (Str × HArr FVal)) (sigs : List SigFound) (rename : Bool) (errors : ErrMode) :
    Except DecErr (SDs FVal) :=
  let ds : SDs FVal := ⟨arrs.map fun a => (a.1, a.2.names), coords⟩
  match sigTermsAll sg (arrs.map (·.1)) rename sigs with
  | .error .sigmaError => if errors = .raise then .error .sigmaError else .ok ds
  | .error .attributeError => .error .attributeError
  | .ok terms => decodeLocsV sg vcat ccat arrs ds terms

end Xoa
