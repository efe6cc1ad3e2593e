import Verif.Options
import Verif.CfDims
import Verif.CfFormat
import Verif.Color

/-!
# Model of `set_option` (xoa/__init__.py), `grid2loc` (xoa/regrid.py), `is_cmap` (xoa/cfgm.py) and `auto_format`
(xoa/cf.py, xoa/accessors.py): functions made of calls to functions that are modelled elsewhere
-/

namespace Xoa

/-- `set_option(option, value)`, xoa/__init__.py:272-290: `set_options(None, **{option: value})` -/
def setOption (user : Opts) (option : Str) (value : OVal) (s : OSt) : OSt × Bool × Option Nat :=
  setInit user none [(option, value)] s

/-! ## `grid2loc` -/

inductive G2LErr
  | get (e : GErr)       -- raised by a coordinate getter
  | typeError            -- a call with a keyword that the function does not have
  deriving DecidableEq, Repr

/-- the vertical coordinates, xoa/regrid.py:178-182: the one of the grid is looked for when there is one at the locations;
the result is whether `"z"` is in the order -/
def locVertical (sg : SG) (two : CfTwo) (da loc : DSA) (compat : EMode) : Except GErr Bool :=
  (getVertical sg two loc .ignore).bind fun deps =>
    if deps.1.isSome then (getVertical sg two da compat).map (fun r => r.1.isSome) else .ok false

/-- the coordinates got by `grid2loc`, xoa/regrid.py:168-182, in this order -/
def locCoords (sg : SG) (two : CfTwo) (da loc : DSA) (compat : EMode) : Except GErr Bool :=
  (getCoordAny sg two da "lon".toList .raise).bind fun _ =>
  (getCoordAny sg two da "lat".toList .raise).bind fun _ =>
  (getCoordAny sg two loc "lon".toList .raise).bind fun _ =>
  (getCoordAny sg two loc "lat".toList .raise).bind fun _ =>
  locVertical sg two da loc compat

/-- `grid2loc(da, loc, compat)`, xoa/regrid.py:139-190: `coords.get_time(loc, errors="ignore")` (183) calls a function
of one parameter `da` (xoa/coords.py:130) with a keyword that it does not have. The rest of the function (184-190), which
would end without a `return`, is never run; `R` stands for what it would return. -/
def grid2loc {R : Type} (sg : SG) (two : CfTwo) (da loc : DSA) (compat : EMode) : Except G2LErr R :=
  ((locCoords sg two da loc compat).mapError .get).bind fun _ => .error .typeError

/-! ## `is_cmap` -/

/-- the values given to `is_cmap` by a configuration: a text or a list; `other` is any other object, with its `str` -/
inductive CmapArg (V : Type)
  | text (s : Str)
  | list (l : List Str)
  | other (repr : Str) (v : V)

inductive IsCmapErr
  | importError          -- `from .color import cmap_custom`
  | unknown              -- `ValueError` of `plt.get_cmap`
  | adapter (e : CmErr)  -- raised by `CmapAdapter.__init__`
  deriving DecidableEq, Repr

/-- `str(value)`; the one of a list is never `None` (it begins with a bracket) -/
def CmapArg.isNoneText {V : Type} : CmapArg V → Bool
  | .text s => s == "None".toList
  | .list _ => false
  | .other r _ => r == "None".toList

/-- `CmapAdapter(value)`, xoa/color.py:86-96, with its default `specs=None` -/
def adapterOf {M F : Type} (zero : F) (toFloat : Str → Option F) (cmap : Option M) : Except IsCmapErr (Adapter M F) :=
  match cmap with
  | none => .error .unknown
  | some c => (mkAdapter zero toFloat c none).mapError .adapter

/-- `is_cmap(value, default)`, xoa/cfgm.py:310-322. `getCmap` is `plt.get_cmap` of matplotlib (`none`: it raises
`ValueError`). There is no `cmap_custom` in xoa/color.py. -/
def isCmap {V M F : Type} (zero : F) (toFloat : Str → Option F) (getCmap : CmapArg V → Option M) (value : CmapArg V) :
    Except IsCmapErr (Option (Adapter M F)) :=
  if value.isNoneText then .ok none else
  match value with
  | .list _ => .error .importError
  | v => (adapterOf zero toFloat (getCmap v)).map some

/-! ## `auto_format` -/

/-- `auto_format(da, loc, standardize)` of a data array, xoa/cf.py:1076-1087 and xoa/accessors.py:77-80: `format_data_var` with
its other defaults -/
def autoFormatArr {α} (sg : SG) (vcat ccat : CfCat) (loc : LocArg) (standardize : Bool) (a : FArr α) : Except FErr (FArr α) :=
  formatDataVar sg vcat ccat { loc := loc, standardize := standardize } true [] a

/-- `auto_format(ds, loc, standardize)` of a dataset: `format_dataset` with its other defaults, which takes `standardize` and
gives `True` in its place to `format_data_var` and `format_coord` (xoa/cf.py:1050 and 1059) -/
def autoFormatDs {α} (sg : SG) (vcat ccat : CfCat) (loc : LocArg) (_standardize : Bool) (ds : FDs α) : Except FErr (FDs α) :=
  formatDataset sg vcat ccat loc true false ds

end Xoa
