import Verif.SGLoc

/-!
# Model of the decoding of sigma terms (xoa/sigma.py:32-51, 408-640)
-/

namespace Xoa

/-- `FORMULA_TERMS_TO_CF_NAMES`, xoa/sigma.py:33-41 -/
def formulaTerms : List (Str × Str) :=
  [("c".toList, "cs".toList), ("s".toList, "sig".toList), ("eta".toList, "ssh".toList), ("depth".toList, "bathy".toList),
   ("depth_c".toList, "hc".toList), ("a".toList, "thetas".toList), ("b".toList, "thetab".toList)]

/-- `SIGMA_COORDINATE_TYPES`, xoa/sigma.py:44-50. A comma is missing after `"ocean_s_coordinate"`:
python concatenates the two strings. -/
def sigmaTypes : List Str :=
  ["atmosphere_sigma_coordinate".toList, "ocean_sigma_coordinate".toList,
   "ocean_s_coordinate".toList ++ "ocean_s_coordinate_g1".toList, "ocean_s_coordinate_g2".toList]

/-- the formula functions of the module and their formula terms (documented in their docstrings,
xoa/sigma.py:57-405) -/
def sigmaFunctions : List (Str × List Str) :=
  [("atmosphere_sigma_coordinate".toList, ["sigma".toList, "ps".toList, "ptop".toList]),
   ("ocean_sigma_coordinate".toList, ["sigma".toList, "eta".toList, "depth".toList]),
   ("ocean_s_coordinate".toList, ["s".toList, "eta".toList, "depth".toList, "a".toList, "b".toList, "depth_c".toList]),
   ("ocean_s_coordinate_g1".toList, ["s".toList, "C".toList, "eta".toList, "depth".toList, "depth_c".toList]),
   ("ocean_s_coordinate_g2".toList, ["s".toList, "C".toList, "eta".toList, "depth".toList, "depth_c".toList])]

/-- `re.compile(r'\b\s+\b').split`, xoa/sigma.py:431: cut at the blanks that are between two word
characters. `cur` is the current item and `pend` the blanks read after a word character, both
reversed. -/
def splitTerms (cur pend : Str) : Str → List Str
  | [] => [(pend ++ cur).reverse]
  | c :: r =>
    if isSpace c then
      if pend ≠ [] ∨ (cur.head?.any isWord) then splitTerms cur (c :: pend) r
      else splitTerms (c :: cur) [] r
    else if pend ≠ [] ∧ isWord c then cur.reverse :: splitTerms [c] [] r
    else splitTerms (c :: (pend ++ cur)) [] r

/-- `re.compile(r'\s*:\s*').split`, xoa/sigma.py:433. `skip`: just after a colon. -/
def splitItem (cur pend : Str) (skip : Bool) : Str → List Str
  | [] => [(pend ++ cur).reverse]
  | c :: r =>
    if c = ':' then cur.reverse :: splitItem [] [] true r
    else if isSpace c then
      if skip then splitItem cur pend true r else splitItem cur (c :: pend) false r
    else splitItem (c :: (pend ++ cur)) [] false r

/-- one item of the attribute, xoa/sigma.py:459-462 -/
def addItem (terms : List (Str × Str)) (item : Str) : Option (List (Str × Str)) :=
  match splitItem [] [] false item with
  | [k, v] => some (setS k v terms)
  | _ => none

/-- `decode_formula_terms`, xoa/sigma.py:436-463; `none` is `XoaSigmaError` -/
def decodeFormulaTerms (attr : Str) : Option (List (Str × Str)) :=
  (splitTerms [] [] attr).foldlM addItem []

inductive STErr
  | sigmaError        -- XoaSigmaError
  | attributeError    -- the misspelled `ds.coord`
  deriving DecidableEq, Repr

/-- `_ds_search_ci_`, xoa/sigma.py:408-428. The second pool is `ds.coord`, which does not exist. -/
def dsSearchCi (dataVars : List Str) (name : Str) : Except STErr Str :=
  match dataVars.find? (fun x => lower x == lower name) with
  | some x => .ok x
  | none => .error .attributeError

/-- a sigma variable: name, standard name without location, formula terms -/
structure SigVar where
  name : Str
  standardName : Option Str
  formulaTerms : Option Str

/-- the loop on formula terms, xoa/sigma.py:533-548 -/
def subTerms (dataVars : List Str) : List (Str × Str) → List (Str × Str) → Except STErr (List (Str × Str))
  | acc, [] => .ok acc
  | acc, (fname, fvname) :: r =>
    match dsSearchCi dataVars fvname with
    | .error e => .error e
    | .ok vname => match lookupS (lower fname) formulaTerms with
      | none => .error .sigmaError
      | some cf => subTerms dataVars (setS vname cf acc) r

/-- `get_sigma_terms` for one sigma variable, xoa/sigma.py:514-550: array names to CF names; the
special key `type` gives the type of coordinate -/
def getSigmaTerms (dataVars : List Str) (sig : SigVar) : Except STErr (List (Str × Str)) :=
  match sig.standardName with
  | none => .error .sigmaError
  | some sn =>
    if sn ∉ sigmaTypes then .error .sigmaError
    else match sig.formulaTerms with
      | none => .error .sigmaError
      | some attr => match decodeFormulaTerms attr with
        | none => .error .sigmaError
        | some terms => subTerms dataVars (setS "type".toList sn [(sig.name, "sig".toList)]) terms

inductive ErrMode
  | ignore | warn | raise
  deriving DecidableEq, Repr

/-- outcome of the decoding: the dataset is returned unchanged, an exception is raised, or the
formula function `type` is called with these keyword arguments (CF name, array name) -/
inductive SigOutcome
  | unchanged
  | raised (e : STErr)
  | called (type : Str) (kwargs : List (Str × Str))
  deriving DecidableEq, Repr

/-- `terms.pop("type")` and the loop that builds the arguments, xoa/sigma.py:610-615 -/
def sigmaKwargs (terms : List (Str × Str)) : List (Str × Str) :=
  (popS "type".toList terms).foldl (fun kw p => setS p.2 p.1 kw) []

/-- `decode_cf_sigma` up to the call of the formula, for a dataset with one sigma variable,
xoa/sigma.py:587-620 -/
def decodeCfSigma (dataVars : List Str) (sig : SigVar) (errors : ErrMode) : SigOutcome :=
  match getSigmaTerms dataVars sig with
  | .error .sigmaError => if errors = .raise then .raised .sigmaError else .unchanged
  | .error e => .raised e
  | .ok terms => .called ((lookupS "type".toList terms).getD []) (sigmaKwargs terms)

end Xoa
