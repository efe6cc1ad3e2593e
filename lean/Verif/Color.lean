import Verif.Str

/-!
# Model of `CmapAdapter` (xoa/color.py)

`M` is the type of colormaps and `F` that of the numbers. `plt.get_cmap` (supposed to have been applied already), the reading of a
number and `cmocean.tools.crop` are parameters.
-/

namespace Xoa

inductive CmErr
  | attr   -- `AttributeError`
  | value  -- `ValueError`: not a number
  | crop   -- `crop` fails
  deriving DecidableEq, Repr

/-- the attribute `specs`: it may be missing -/
inductive CmSpecs (F : Type)
  | unset
  | pivot (x : F)
  | cycle (x : F)
  deriving DecidableEq

structure Adapter (M F : Type) where
  cmap : M
  vmin : Option F
  vmax : Option F
  specs : CmSpecs F

/-- `CmapAdapter(cmap, specs)`, xoa/color.py:86-96. `specs=None` is not the end of the method (:89-91). -/
def mkAdapter {M F : Type} (zero : F) (toFloat : Str → Option F) (cmap : M) (specs : Option Str) : Except CmErr (Adapter M F) :=
  match specs with
  | none => .error .attr
  | some s =>
    if "piv".toList.isPrefixOf s then
      match toFloat (s.drop 3) with
      | none => .error .value
      | some x => .ok ⟨cmap, none, none, .pivot x⟩
    else if "cyc".toList.isPrefixOf s then
      match toFloat (s.drop 3) with
      | none => .error .value
      | some x => .ok ⟨cmap, some zero, some x, .cycle x⟩
    else .ok ⟨cmap, none, none, .unset⟩

/-- `set_vlim(vmin, vmax)`, xoa/color.py:98-104; the numbers may be `None`. It returns the limits. -/
def setVlim {M F : Type} (zero full : F) (a : Adapter M F) (lim : Option F × Option F) : Except CmErr (Adapter M F × (Option F × Option F)) :=
  match a.specs with
  | .unset => .error .attr
  | .cycle _ => .ok ({ a with vmin := some zero, vmax := some full }, (some zero, some full))
  | .pivot _ => .ok ({ a with vmin := lim.1, vmax := lim.2 }, lim)

/-- `get_cmap()`, xoa/color.py:106-114; `None` when the method ends without `return` -/
def adaptedCmap {M F : Type} (crop : M → F → F → F → Option M) (a : Adapter M F) : Except CmErr (Option M) :=
  match a.specs with
  | .unset => .error .attr
  | .cycle _ => .ok none
  | .pivot x =>
    match a.vmin, a.vmax with
    | some lo, some hi => match crop a.cmap lo hi x with
      | none => .error .crop
      | some m => .ok (some m)
    | _, _ => .ok (some a.cmap)

/-- `get_dict()`, xoa/color.py:116-118: colormap, min and max -/
def adapterDict {M F : Type} (crop : M → F → F → F → Option M) (a : Adapter M F) : Except CmErr (Option M × Option F × Option F) :=
  match adaptedCmap crop a with
  | .error e => .error e
  | .ok m => .ok (m, a.vmin, a.vmax)

/-- a history of calls to `set_vlim` -/
def setVlims {M F : Type} (zero full : F) (a : Adapter M F) : List (Option F × Option F) → Except CmErr (Adapter M F)
  | [] => .ok a
  | l :: ls => match setVlim zero full a l with
    | .error e => .error e
    | .ok (b, _) => setVlims zero full b ls

end Xoa
