import Verif.RoundingMono

/-!
# The terrain following coordinates in floating-point arithmetic

The same formulas as in `Verif.Sigma`, at one point of the grid, every operation being rounded. The stretching value is an argument: the one of the file
(formula term `C`), or the one that `get_cs` computed, whatever its own rounding errors. The cache is not modelled here (see C31).
-/

namespace Xoa

/-- `atmosphere_sigma_coordinate`, xoa/sigma.py:88-90 -/
def atmosphereSigmaF (fl : ℚ → ℚ) (sig ps ptop : ℚ) : ℚ := fl (fl (sig * fl (ps - ptop)) + ptop)

/-- `ocean_sigma_coordinate`, xoa/sigma.py:127-129 -/
def oceanSigmaF (fl : ℚ → ℚ) (sig ssh bathy : ℚ) : ℚ := fl (fl (sig * fl (bathy + ssh)) + ssh)

/-- `zconst` of `ocean_s_coordinate` and `S` of its generic form 1, xoa/sigma.py:224-225 and 309 -/
def stretchF (fl : ℚ → ℚ) (sig bathy hc cs : ℚ) : ℚ := fl (fl (sig * hc) + fl (cs * fl (bathy - hc)))

/-- `ocean_s_coordinate`, xoa/sigma.py:224-232 -/
def oceanSF (fl : ℚ → ℚ) (sig ssh bathy hc cs : ℚ) : ℚ := fl (fl (fl (sig + 1) * ssh) + stretchF fl sig bathy hc cs)

/-- `ocean_s_coordinate_g1`, xoa/sigma.py:309-318 -/
def oceanSG1F (fl : ℚ → ℚ) (sig ssh bathy hc cs : ℚ) : ℚ :=
  let S := stretchF fl sig bathy hc cs
  let Sh1 := fl (fl (S / bathy) + 1)
  fl (S + fl (Sh1 * ssh))

/-- `S` of `ocean_s_coordinate_g2`, xoa/sigma.py:393-394 -/
def stretchG2F (fl : ℚ → ℚ) (sig bathy hc cs : ℚ) : ℚ := fl (fl (fl (sig * hc) + fl (cs * bathy)) / fl (hc + bathy))

/-- `ocean_s_coordinate_g2`, xoa/sigma.py:393-402 -/
def oceanSG2F (fl : ℚ → ℚ) (sig ssh bathy hc cs : ℚ) : ℚ :=
  let S := stretchG2F fl sig bathy hc cs
  fl (fl (S * bathy) + fl (fl (S + 1) * ssh))

end Xoa
