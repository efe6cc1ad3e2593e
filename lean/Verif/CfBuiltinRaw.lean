import Verif.CfInherit

/-!
# The built-in CF specifications, as they are in xoa/cf.cfg

Generated by tools/gen_cfcfg.py. For each item: its name, its keys and the section `attrs` (empty when there is none).
Texts are lists of characters, which the kernel reads faster than literals; the comments have the lines of the file.
-/

set_option maxRecDepth 20000

namespace Xoa

/-- an item of the file: its name, its keys and its section `attrs` -/
abbrev RawItem := Str × List (Str × FV) × List (Str × FV)

/-- section `data_vars`, xoa/cf.cfg:1-994 -/
def rawVars : List RawItem := [
  -- [[ptemp]] cmap = cmo.thermal [[[attrs]]] standard_name = sea_water_potential_temperature; long_name = Potential temperature; units = degrees_celsius
  (['p', 't', 'e', 'm', 'p'], [(['c', 'm', 'a', 'p'], .str ['c', 'm', 'o', '.', 't', 'h', 'e', 'r', 'm', 'a', 'l'])],
    [(['s', 't', 'a', 'n', 'd', 'a', 'r', 'd', '_', 'n', 'a', 'm', 'e'], .str ['s', 'e', 'a', '_', 'w', 'a', 't', 'e', 'r', '_', 'p', 'o', 't', 'e', 'n', 't', 'i', 'a', 'l', '_', 't', 'e', 'm', 'p', 'e', 'r', 'a', 't', 'u', 'r', 'e']), (['l', 'o', 'n', 'g', '_', 'n', 'a', 'm', 'e'], .str ['P', 'o', 't', 'e', 'n', 't', 'i', 'a', 'l', ' ', 't', 'e', 'm', 'p', 'e', 'r', 'a', 't', 'u', 'r', 'e']), (['u', 'n', 'i', 't', 's'], .str ['d', 'e', 'g', 'r', 'e', 'e', 's', '_', 'c', 'e', 'l', 's', 'i', 'u', 's'])]),
  -- [[temp]] inherit = ptemp; name = temperature [[[attrs]]] standard_name = sea_water_temperature; long_name = Temperature
  (['t', 'e', 'm', 'p'], [(['i', 'n', 'h', 'e', 'r', 'i', 't'], .str ['p', 't', 'e', 'm', 'p']), (['n', 'a', 'm', 'e'], .str ['t', 'e', 'm', 'p', 'e', 'r', 'a', 't', 'u', 'r', 'e'])],
    [(['s', 't', 'a', 'n', 'd', 'a', 'r', 'd', '_', 'n', 'a', 'm', 'e'], .str ['s', 'e', 'a', '_', 'w', 'a', 't', 'e', 'r', '_', 't', 'e', 'm', 'p', 'e', 'r', 'a', 't', 'u', 'r', 'e']), (['l', 'o', 'n', 'g', '_', 'n', 'a', 'm', 'e'], .str ['T', 'e', 'm', 'p', 'e', 'r', 'a', 't', 'u', 'r', 'e'])]),
  -- [[sal]] name = psal,salinity; cmap = cmo.haline [[[attrs]]] standard_name = sea_water_salinity; long_name = Salinity; units = 1e-3,PSU
  (['s', 'a', 'l'], [(['n', 'a', 'm', 'e'], .list [['p', 's', 'a', 'l'], ['s', 'a', 'l', 'i', 'n', 'i', 't', 'y']]), (['c', 'm', 'a', 'p'], .str ['c', 'm', 'o', '.', 'h', 'a', 'l', 'i', 'n', 'e'])],
    [(['s', 't', 'a', 'n', 'd', 'a', 'r', 'd', '_', 'n', 'a', 'm', 'e'], .str ['s', 'e', 'a', '_', 'w', 'a', 't', 'e', 'r', '_', 's', 'a', 'l', 'i', 'n', 'i', 't', 'y']), (['l', 'o', 'n', 'g', '_', 'n', 'a', 'm', 'e'], .str ['S', 'a', 'l', 'i', 'n', 'i', 't', 'y']), (['u', 'n', 'i', 't', 's'], .list [['1', 'e', '-', '3'], ['P', 'S', 'U']])]),
  -- [[sst]] cmap = cmo.thermal [[[attrs]]] standard_name = sea_surface_temperature,surface_sea_water_temperature; long_name = Sea surface temperature; units = degrees_celsius
  (['s', 's', 't'], [(['c', 'm', 'a', 'p'], .str ['c', 'm', 'o', '.', 't', 'h', 'e', 'r', 'm', 'a', 'l'])],
    [(['s', 't', 'a', 'n', 'd', 'a', 'r', 'd', '_', 'n', 'a', 'm', 'e'], .list [['s', 'e', 'a', '_', 's', 'u', 'r', 'f', 'a', 'c', 'e', '_', 't', 'e', 'm', 'p', 'e', 'r', 'a', 't', 'u', 'r', 'e'], ['s', 'u', 'r', 'f', 'a', 'c', 'e', '_', 's', 'e', 'a', '_', 'w', 'a', 't', 'e', 'r', '_', 't', 'e', 'm', 'p', 'e', 'r', 'a', 't', 'u', 'r', 'e']]), (['l', 'o', 'n', 'g', '_', 'n', 'a', 'm', 'e'], .str ['S', 'e', 'a', ' ', 's', 'u', 'r', 'f', 'a', 'c', 'e', ' ', 't', 'e', 'm', 'p', 'e', 'r', 'a', 't', 'u', 'r', 'e']), (['u', 'n', 'i', 't', 's'], .str ['d', 'e', 'g', 'r', 'e', 'e', 's', '_', 'c', 'e', 'l', 's', 'i', 'u', 's'])]),
  -- [[sss]] cmap = cmo.haline [[[attrs]]] standard_name = sea_surface_salinity; long_name = Sea surface salinity; units = PSU
  (['s', 's', 's'], [(['c', 'm', 'a', 'p'], .str ['c', 'm', 'o', '.', 'h', 'a', 'l', 'i', 'n', 'e'])],
    [(['s', 't', 'a', 'n', 'd', 'a', 'r', 'd', '_', 'n', 'a', 'm', 'e'], .str ['s', 'e', 'a', '_', 's', 'u', 'r', 'f', 'a', 'c', 'e', '_', 's', 'a', 'l', 'i', 'n', 'i', 't', 'y']), (['l', 'o', 'n', 'g', '_', 'n', 'a', 'm', 'e'], .str ['S', 'e', 'a', ' ', 's', 'u', 'r', 'f', 'a', 'c', 'e', ' ', 's', 'a', 'l', 'i', 'n', 'i', 't', 'y']), (['u', 'n', 'i', 't', 's'], .str ['P', 'S', 'U'])]),
  -- [[dens]] cmap = cmo.dense [[[attrs]]] standard_name = sea_water_density; long_name = Sea water density; units = kg m-3
  (['d', 'e', 'n', 's'], [(['c', 'm', 'a', 'p'], .str ['c', 'm', 'o', '.', 'd', 'e', 'n', 's', 'e'])],
    [(['s', 't', 'a', 'n', 'd', 'a', 'r', 'd', '_', 'n', 'a', 'm', 'e'], .str ['s', 'e', 'a', '_', 'w', 'a', 't', 'e', 'r', '_', 'd', 'e', 'n', 's', 'i', 't', 'y']), (['l', 'o', 'n', 'g', '_', 'n', 'a', 'm', 'e'], .str ['S', 'e', 'a', ' ', 'w', 'a', 't', 'e', 'r', ' ', 'd', 'e', 'n', 's', 'i', 't', 'y']), (['u', 'n', 'i', 't', 's'], .str ['k', 'g', ' ', 'm', '-', '3'])]),
  -- [[sigmat]] cmap = cmo.dense [[[attrs]]] standard_name = sea_water_sigma_t; long_name = Sea water density minus 1000; units = kg m-3
  (['s', 'i', 'g', 'm', 'a', 't'], [(['c', 'm', 'a', 'p'], .str ['c', 'm', 'o', '.', 'd', 'e', 'n', 's', 'e'])],
    [(['s', 't', 'a', 'n', 'd', 'a', 'r', 'd', '_', 'n', 'a', 'm', 'e'], .str ['s', 'e', 'a', '_', 'w', 'a', 't', 'e', 'r', '_', 's', 'i', 'g', 'm', 'a', '_', 't']), (['l', 'o', 'n', 'g', '_', 'n', 'a', 'm', 'e'], .str ['S', 'e', 'a', ' ', 'w', 'a', 't', 'e', 'r', ' ', 'd', 'e', 'n', 's', 'i', 't', 'y', ' ', 'm', 'i', 'n', 'u', 's', ' ', '1', '0', '0', '0']), (['u', 'n', 'i', 't', 's'], .str ['k', 'g', ' ', 'm', '-', '3'])]),
  -- [[ndens]] cmap = cmo.dense [[[attrs]]] standard_name = sea_water_neutral_density; long_name = Sea water neutral density; units = kg m-3
  (['n', 'd', 'e', 'n', 's'], [(['c', 'm', 'a', 'p'], .str ['c', 'm', 'o', '.', 'd', 'e', 'n', 's', 'e'])],
    [(['s', 't', 'a', 'n', 'd', 'a', 'r', 'd', '_', 'n', 'a', 'm', 'e'], .str ['s', 'e', 'a', '_', 'w', 'a', 't', 'e', 'r', '_', 'n', 'e', 'u', 't', 'r', 'a', 'l', '_', 'd', 'e', 'n', 's', 'i', 't', 'y']), (['l', 'o', 'n', 'g', '_', 'n', 'a', 'm', 'e'], .str ['S', 'e', 'a', ' ', 'w', 'a', 't', 'e', 'r', ' ', 'n', 'e', 'u', 't', 'r', 'a', 'l', ' ', 'd', 'e', 'n', 's', 'i', 't', 'y']), (['u', 'n', 'i', 't', 's'], .str ['k', 'g', ' ', 'm', '-', '3'])]),
  -- [[sigmatheta]] cmap = cmo.dense [[[attrs]]] standard_name = sea_water_sigma_theta; long_name = Sea water potential density minus 1000; units = kg m-3
  (['s', 'i', 'g', 'm', 'a', 't', 'h', 'e', 't', 'a'], [(['c', 'm', 'a', 'p'], .str ['c', 'm', 'o', '.', 'd', 'e', 'n', 's', 'e'])],
    [(['s', 't', 'a', 'n', 'd', 'a', 'r', 'd', '_', 'n', 'a', 'm', 'e'], .str ['s', 'e', 'a', '_', 'w', 'a', 't', 'e', 'r', '_', 's', 'i', 'g', 'm', 'a', '_', 't', 'h', 'e', 't', 'a']), (['l', 'o', 'n', 'g', '_', 'n', 'a', 'm', 'e'], .str ['S', 'e', 'a', ' ', 'w', 'a', 't', 'e', 'r', ' ', 'p', 'o', 't', 'e', 'n', 't', 'i', 'a', 'l', ' ', 'd', 'e', 'n', 's', 'i', 't', 'y', ' ', 'm', 'i', 'n', 'u', 's', ' ', '1', '0', '0', '0']), (['u', 'n', 'i', 't', 's'], .str ['k', 'g', ' ', 'm', '-', '3'])]),
  -- [[pdens]] name = sigma0; cmap = cmo.dense [[[attrs]]] standard_name = sea_water_potential_density; long_name = Sea water potential density; units = kg m-3
  (['p', 'd', 'e', 'n', 's'], [(['n', 'a', 'm', 'e'], .str ['s', 'i', 'g', 'm', 'a', '0']), (['c', 'm', 'a', 'p'], .str ['c', 'm', 'o', '.', 'd', 'e', 'n', 's', 'e'])],
    [(['s', 't', 'a', 'n', 'd', 'a', 'r', 'd', '_', 'n', 'a', 'm', 'e'], .str ['s', 'e', 'a', '_', 'w', 'a', 't', 'e', 'r', '_', 'p', 'o', 't', 'e', 'n', 't', 'i', 'a', 'l', '_', 'd', 'e', 'n', 's', 'i', 't', 'y']), (['l', 'o', 'n', 'g', '_', 'n', 'a', 'm', 'e'], .str ['S', 'e', 'a', ' ', 'w', 'a', 't', 'e', 'r', ' ', 'p', 'o', 't', 'e', 'n', 't', 'i', 'a', 'l', ' ', 'd', 'e', 'n', 's', 'i', 't', 'y']), (['u', 'n', 'i', 't', 's'], .str ['k', 'g', ' ', 'm', '-', '3'])]),
  -- [[sigma0]] inherit = pdens; cmap = cmo.dense
  (['s', 'i', 'g', 'm', 'a', '0'], [(['i', 'n', 'h', 'e', 'r', 'i', 't'], .str ['p', 'd', 'e', 'n', 's']), (['c', 'm', 'a', 'p'], .str ['c', 'm', 'o', '.', 'd', 'e', 'n', 's', 'e'])],
    []),
  -- [[sigma1]] cmap = cmo.dense [[[attrs]]] standard_name = sea_water_potential_density; long_name = Sea water potential density with ref at 1000 dbar; units = kg m-3
  (['s', 'i', 'g', 'm', 'a', '1'], [(['c', 'm', 'a', 'p'], .str ['c', 'm', 'o', '.', 'd', 'e', 'n', 's', 'e'])],
    [(['s', 't', 'a', 'n', 'd', 'a', 'r', 'd', '_', 'n', 'a', 'm', 'e'], .str ['s', 'e', 'a', '_', 'w', 'a', 't', 'e', 'r', '_', 'p', 'o', 't', 'e', 'n', 't', 'i', 'a', 'l', '_', 'd', 'e', 'n', 's', 'i', 't', 'y']), (['l', 'o', 'n', 'g', '_', 'n', 'a', 'm', 'e'], .str ['S', 'e', 'a', ' ', 'w', 'a', 't', 'e', 'r', ' ', 'p', 'o', 't', 'e', 'n', 't', 'i', 'a', 'l', ' ', 'd', 'e', 'n', 's', 'i', 't', 'y', ' ', 'w', 'i', 't', 'h', ' ', 'r', 'e', 'f', ' ', 'a', 't', ' ', '1', '0', '0', '0', ' ', 'd', 'b', 'a', 'r']), (['u', 'n', 'i', 't', 's'], .str ['k', 'g', ' ', 'm', '-', '3'])]),
  -- [[sigma2]] cmap = cmo.dense [[[attrs]]] standard_name = sea_water_potential_density; long_name = Sea water potential density with ref at 2000 dbar; units = kg m-3
  (['s', 'i', 'g', 'm', 'a', '2'], [(['c', 'm', 'a', 'p'], .str ['c', 'm', 'o', '.', 'd', 'e', 'n', 's', 'e'])],
    [(['s', 't', 'a', 'n', 'd', 'a', 'r', 'd', '_', 'n', 'a', 'm', 'e'], .str ['s', 'e', 'a', '_', 'w', 'a', 't', 'e', 'r', '_', 'p', 'o', 't', 'e', 'n', 't', 'i', 'a', 'l', '_', 'd', 'e', 'n', 's', 'i', 't', 'y']), (['l', 'o', 'n', 'g', '_', 'n', 'a', 'm', 'e'], .str ['S', 'e', 'a', ' ', 'w', 'a', 't', 'e', 'r', ' ', 'p', 'o', 't', 'e', 'n', 't', 'i', 'a', 'l', ' ', 'd', 'e', 'n', 's', 'i', 't', 'y', ' ', 'w', 'i', 't', 'h', ' ', 'r', 'e', 'f', ' ', 'a', 't', ' ', '2', '0', '0', '0', ' ', 'd', 'b', 'a', 'r']), (['u', 'n', 'i', 't', 's'], .str ['k', 'g', ' ', 'm', '-', '3'])]),
  -- [[sigma3]] cmap = cmo.dense [[[attrs]]] standard_name = sea_water_potential_density; long_name = Sea water potential density with ref at 3000 dbar; units = kg m-3
  (['s', 'i', 'g', 'm', 'a', '3'], [(['c', 'm', 'a', 'p'], .str ['c', 'm', 'o', '.', 'd', 'e', 'n', 's', 'e'])],
    [(['s', 't', 'a', 'n', 'd', 'a', 'r', 'd', '_', 'n', 'a', 'm', 'e'], .str ['s', 'e', 'a', '_', 'w', 'a', 't', 'e', 'r', '_', 'p', 'o', 't', 'e', 'n', 't', 'i', 'a', 'l', '_', 'd', 'e', 'n', 's', 'i', 't', 'y']), (['l', 'o', 'n', 'g', '_', 'n', 'a', 'm', 'e'], .str ['S', 'e', 'a', ' ', 'w', 'a', 't', 'e', 'r', ' ', 'p', 'o', 't', 'e', 'n', 't', 'i', 'a', 'l', ' ', 'd', 'e', 'n', 's', 'i', 't', 'y', ' ', 'w', 'i', 't', 'h', ' ', 'r', 'e', 'f', ' ', 'a', 't', ' ', '3', '0', '0', '0', ' ', 'd', 'b', 'a', 'r']), (['u', 'n', 'i', 't', 's'], .str ['k', 'g', ' ', 'm', '-', '3'])]),
  -- [[sigma4]] cmap = cmo.dense [[[attrs]]] standard_name = sea_water_potential_density; long_name = Sea water potential density with ref at 4000 dbar; units = kg m-3
  (['s', 'i', 'g', 'm', 'a', '4'], [(['c', 'm', 'a', 'p'], .str ['c', 'm', 'o', '.', 'd', 'e', 'n', 's', 'e'])],
    [(['s', 't', 'a', 'n', 'd', 'a', 'r', 'd', '_', 'n', 'a', 'm', 'e'], .str ['s', 'e', 'a', '_', 'w', 'a', 't', 'e', 'r', '_', 'p', 'o', 't', 'e', 'n', 't', 'i', 'a', 'l', '_', 'd', 'e', 'n', 's', 'i', 't', 'y']), (['l', 'o', 'n', 'g', '_', 'n', 'a', 'm', 'e'], .str ['S', 'e', 'a', ' ', 'w', 'a', 't', 'e', 'r', ' ', 'p', 'o', 't', 'e', 'n', 't', 'i', 'a', 'l', ' ', 'd', 'e', 'n', 's', 'i', 't', 'y', ' ', 'w', 'i', 't', 'h', ' ', 'r', 'e', 'f', ' ', 'a', 't', ' ', '4', '0', '0', '0', ' ', 'd', 'b', 'a', 'r']), (['u', 'n', 'i', 't', 's'], .str ['k', 'g', ' ', 'm', '-', '3'])]),
  -- [[ssd]] cmap = cmo.dense [[[attrs]]] standard_name = sea_surface_density; long_name = Sea surface density; units = PSU
  (['s', 's', 'd'], [(['c', 'm', 'a', 'p'], .str ['c', 'm', 'o', '.', 'd', 'e', 'n', 's', 'e'])],
    [(['s', 't', 'a', 'n', 'd', 'a', 'r', 'd', '_', 'n', 'a', 'm', 'e'], .str ['s', 'e', 'a', '_', 's', 'u', 'r', 'f', 'a', 'c', 'e', '_', 'd', 'e', 'n', 's', 'i', 't', 'y']), (['l', 'o', 'n', 'g', '_', 'n', 'a', 'm', 'e'], .str ['S', 'e', 'a', ' ', 's', 'u', 'r', 'f', 'a', 'c', 'e', ' ', 'd', 'e', 'n', 's', 'i', 't', 'y']), (['u', 'n', 'i', 't', 's'], .str ['P', 'S', 'U'])]),
  -- [[conduct]]  [[[attrs]]] standard_name = sea_water_electrical_conductivity; long_name = Sea water electrial conductivity; units = S m-1
  (['c', 'o', 'n', 'd', 'u', 'c', 't'], [],
    [(['s', 't', 'a', 'n', 'd', 'a', 'r', 'd', '_', 'n', 'a', 'm', 'e'], .str ['s', 'e', 'a', '_', 'w', 'a', 't', 'e', 'r', '_', 'e', 'l', 'e', 'c', 't', 'r', 'i', 'c', 'a', 'l', '_', 'c', 'o', 'n', 'd', 'u', 'c', 't', 'i', 'v', 'i', 't', 'y']), (['l', 'o', 'n', 'g', '_', 'n', 'a', 'm', 'e'], .str ['S', 'e', 'a', ' ', 'w', 'a', 't', 'e', 'r', ' ', 'e', 'l', 'e', 'c', 't', 'r', 'i', 'a', 'l', ' ', 'c', 'o', 'n', 'd', 'u', 'c', 't', 'i', 'v', 'i', 't', 'y']), (['u', 'n', 'i', 't', 's'], .str ['S', ' ', 'm', '-', '1'])]),
  -- [[sndspd]]  [[[attrs]]] standard_name = speed_of_sound_in_sea_water; long_name = Speed of sound in water; units = m s-1
  (['s', 'n', 'd', 's', 'p', 'd'], [],
    [(['s', 't', 'a', 'n', 'd', 'a', 'r', 'd', '_', 'n', 'a', 'm', 'e'], .str ['s', 'p', 'e', 'e', 'd', '_', 'o', 'f', '_', 's', 'o', 'u', 'n', 'd', '_', 'i', 'n', '_', 's', 'e', 'a', '_', 'w', 'a', 't', 'e', 'r']), (['l', 'o', 'n', 'g', '_', 'n', 'a', 'm', 'e'], .str ['S', 'p', 'e', 'e', 'd', ' ', 'o', 'f', ' ', 's', 'o', 'u', 'n', 'd', ' ', 'i', 'n', ' ', 'w', 'a', 't', 'e', 'r']), (['u', 'n', 'i', 't', 's'], .str ['m', ' ', 's', '-', '1'])]),
  -- [[mld]]  [[[attrs]]] standard_name = mixed_layer_depth; long_name = Mixed layer depth; units = m
  (['m', 'l', 'd'], [],
    [(['s', 't', 'a', 'n', 'd', 'a', 'r', 'd', '_', 'n', 'a', 'm', 'e'], .str ['m', 'i', 'x', 'e', 'd', '_', 'l', 'a', 'y', 'e', 'r', '_', 'd', 'e', 'p', 't', 'h']), (['l', 'o', 'n', 'g', '_', 'n', 'a', 'm', 'e'], .str ['M', 'i', 'x', 'e', 'd', ' ', 'l', 'a', 'y', 'e', 'r', ' ', 'd', 'e', 'p', 't', 'h']), (['u', 'n', 'i', 't', 's'], .str ['m'])]),
  -- [[ped]]  [[[attrs]]] standard_name = potential_energy_deficit; long_name = Potential energy deficit; units = J m-2
  (['p', 'e', 'd'], [],
    [(['s', 't', 'a', 'n', 'd', 'a', 'r', 'd', '_', 'n', 'a', 'm', 'e'], .str ['p', 'o', 't', 'e', 'n', 't', 'i', 'a', 'l', '_', 'e', 'n', 'e', 'r', 'g', 'y', '_', 'd', 'e', 'f', 'i', 'c', 'i', 't']), (['l', 'o', 'n', 'g', '_', 'n', 'a', 'm', 'e'], .str ['P', 'o', 't', 'e', 'n', 't', 'i', 'a', 'l', ' ', 'e', 'n', 'e', 'r', 'g', 'y', ' ', 'd', 'e', 'f', 'i', 'c', 'i', 't']), (['u', 'n', 'i', 't', 's'], .str ['J', ' ', 'm', '-', '2'])]),
  -- [[ohc]] cmap = cmo.thermal [[[attrs]]] standard_name = ocean_heat_content; long_name = Ocean heat content; units = J
  (['o', 'h', 'c'], [(['c', 'm', 'a', 'p'], .str ['c', 'm', 'o', '.', 't', 'h', 'e', 'r', 'm', 'a', 'l'])],
    [(['s', 't', 'a', 'n', 'd', 'a', 'r', 'd', '_', 'n', 'a', 'm', 'e'], .str ['o', 'c', 'e', 'a', 'n', '_', 'h', 'e', 'a', 't', '_', 'c', 'o', 'n', 't', 'e', 'n', 't']), (['l', 'o', 'n', 'g', '_', 'n', 'a', 'm', 'e'], .str ['O', 'c', 'e', 'a', 'n', ' ', 'h', 'e', 'a', 't', ' ', 'c', 'o', 'n', 't', 'e', 'n', 't']), (['u', 'n', 'i', 't', 's'], .str ['J'])]),
  -- [[osc]] cmap = cmo.haline [[[attrs]]] standard_name = ocean_salt_content; long_name = Ocean salt content; units = kg
  (['o', 's', 'c'], [(['c', 'm', 'a', 'p'], .str ['c', 'm', 'o', '.', 'h', 'a', 'l', 'i', 'n', 'e'])],
    [(['s', 't', 'a', 'n', 'd', 'a', 'r', 'd', '_', 'n', 'a', 'm', 'e'], .str ['o', 'c', 'e', 'a', 'n', '_', 's', 'a', 'l', 't', '_', 'c', 'o', 'n', 't', 'e', 'n', 't']), (['l', 'o', 'n', 'g', '_', 'n', 'a', 'm', 'e'], .str ['O', 'c', 'e', 'a', 'n', ' ', 's', 'a', 'l', 't', ' ', 'c', 'o', 'n', 't', 'e', 'n', 't']), (['u', 'n', 'i', 't', 's'], .str ['k', 'g'])]),
  -- [[cp]] cmap = cmo.thermal [[[attrs]]] standard_name = specific_heat_capacity; long_name = Specific heat capacity; units = J K-1
  (['c', 'p'], [(['c', 'm', 'a', 'p'], .str ['c', 'm', 'o', '.', 't', 'h', 'e', 'r', 'm', 'a', 'l'])],
    [(['s', 't', 'a', 'n', 'd', 'a', 'r', 'd', '_', 'n', 'a', 'm', 'e'], .str ['s', 'p', 'e', 'c', 'i', 'f', 'i', 'c', '_', 'h', 'e', 'a', 't', '_', 'c', 'a', 'p', 'a', 'c', 'i', 't', 'y']), (['l', 'o', 'n', 'g', '_', 'n', 'a', 'm', 'e'], .str ['S', 'p', 'e', 'c', 'i', 'f', 'i', 'c', ' ', 'h', 'e', 'a', 't', ' ', 'c', 'a', 'p', 'a', 'c', 'i', 't', 'y']), (['u', 'n', 'i', 't', 's'], .str ['J', ' ', 'K', '-', '1'])]),
  -- [[ssh]] name = xe,wlv; cmap = cmo.balance:piv0 [[[attrs]]] standard_name = sea_surface_height,sea_surface_height_above_sea_level,sea_surface_height_above_geoid; long_name = Sea surface height; units = m
  (['s', 's', 'h'], [(['n', 'a', 'm', 'e'], .list [['x', 'e'], ['w', 'l', 'v']]), (['c', 'm', 'a', 'p'], .str ['c', 'm', 'o', '.', 'b', 'a', 'l', 'a', 'n', 'c', 'e', ':', 'p', 'i', 'v', '0'])],
    [(['s', 't', 'a', 'n', 'd', 'a', 'r', 'd', '_', 'n', 'a', 'm', 'e'], .list [['s', 'e', 'a', '_', 's', 'u', 'r', 'f', 'a', 'c', 'e', '_', 'h', 'e', 'i', 'g', 'h', 't'], ['s', 'e', 'a', '_', 's', 'u', 'r', 'f', 'a', 'c', 'e', '_', 'h', 'e', 'i', 'g', 'h', 't', '_', 'a', 'b', 'o', 'v', 'e', '_', 's', 'e', 'a', '_', 'l', 'e', 'v', 'e', 'l'], ['s', 'e', 'a', '_', 's', 'u', 'r', 'f', 'a', 'c', 'e', '_', 'h', 'e', 'i', 'g', 'h', 't', '_', 'a', 'b', 'o', 'v', 'e', '_', 'g', 'e', 'o', 'i', 'd']]), (['l', 'o', 'n', 'g', '_', 'n', 'a', 'm', 'e'], .str ['S', 'e', 'a', ' ', 's', 'u', 'r', 'f', 'a', 'c', 'e', ' ', 'h', 'e', 'i', 'g', 'h', 't']), (['u', 'n', 'i', 't', 's'], .str ['m'])]),
  -- [[u]] name = uz,u3d; cmap = cmo.delta:piv0 [[[attrs]]] standard_name = sea_water_x_velocity; long_name = Sea water velocity along X; units = m s-1
  (['u'], [(['n', 'a', 'm', 'e'], .list [['u', 'z'], ['u', '3', 'd']]), (['c', 'm', 'a', 'p'], .str ['c', 'm', 'o', '.', 'd', 'e', 'l', 't', 'a', ':', 'p', 'i', 'v', '0'])],
    [(['s', 't', 'a', 'n', 'd', 'a', 'r', 'd', '_', 'n', 'a', 'm', 'e'], .str ['s', 'e', 'a', '_', 'w', 'a', 't', 'e', 'r', '_', 'x', '_', 'v', 'e', 'l', 'o', 'c', 'i', 't', 'y']), (['l', 'o', 'n', 'g', '_', 'n', 'a', 'm', 'e'], .str ['S', 'e', 'a', ' ', 'w', 'a', 't', 'e', 'r', ' ', 'v', 'e', 'l', 'o', 'c', 'i', 't', 'y', ' ', 'a', 'l', 'o', 'n', 'g', ' ', 'X']), (['u', 'n', 'i', 't', 's'], .str ['m', ' ', 's', '-', '1'])]),
  -- [[v]] name = vz,v3d; cmap = cmo.delta:piv0 [[[attrs]]] standard_name = sea_water_y_velocity; long_name = Sea water velocity along Y; units = m s-1
  (['v'], [(['n', 'a', 'm', 'e'], .list [['v', 'z'], ['v', '3', 'd']]), (['c', 'm', 'a', 'p'], .str ['c', 'm', 'o', '.', 'd', 'e', 'l', 't', 'a', ':', 'p', 'i', 'v', '0'])],
    [(['s', 't', 'a', 'n', 'd', 'a', 'r', 'd', '_', 'n', 'a', 'm', 'e'], .str ['s', 'e', 'a', '_', 'w', 'a', 't', 'e', 'r', '_', 'y', '_', 'v', 'e', 'l', 'o', 'c', 'i', 't', 'y']), (['l', 'o', 'n', 'g', '_', 'n', 'a', 'm', 'e'], .str ['S', 'e', 'a', ' ', 'w', 'a', 't', 'e', 'r', ' ', 'v', 'e', 'l', 'o', 'c', 'i', 't', 'y', ' ', 'a', 'l', 'o', 'n', 'g', ' ', 'Y']), (['u', 'n', 'i', 't', 's'], .str ['m', ' ', 's', '-', '1'])]),
  -- [[w]] name = wz,w3d; cmap = cmo.delta:piv0 [[[attrs]]] standard_name = sea_water_z_velocity_at_w_location,sea_water_z_velocity; long_name = Sea water velocity along Z at W location; units = m s-1
  (['w'], [(['n', 'a', 'm', 'e'], .list [['w', 'z'], ['w', '3', 'd']]), (['c', 'm', 'a', 'p'], .str ['c', 'm', 'o', '.', 'd', 'e', 'l', 't', 'a', ':', 'p', 'i', 'v', '0'])],
    [(['s', 't', 'a', 'n', 'd', 'a', 'r', 'd', '_', 'n', 'a', 'm', 'e'], .list [['s', 'e', 'a', '_', 'w', 'a', 't', 'e', 'r', '_', 'z', '_', 'v', 'e', 'l', 'o', 'c', 'i', 't', 'y', '_', 'a', 't', '_', 'w', '_', 'l', 'o', 'c', 'a', 't', 'i', 'o', 'n'], ['s', 'e', 'a', '_', 'w', 'a', 't', 'e', 'r', '_', 'z', '_', 'v', 'e', 'l', 'o', 'c', 'i', 't', 'y']]), (['l', 'o', 'n', 'g', '_', 'n', 'a', 'm', 'e'], .str ['S', 'e', 'a', ' ', 'w', 'a', 't', 'e', 'r', ' ', 'v', 'e', 'l', 'o', 'c', 'i', 't', 'y', ' ', 'a', 'l', 'o', 'n', 'g', ' ', 'Z', ' ', 'a', 't', ' ', 'W', ' ', 'l', 'o', 'c', 'a', 't', 'i', 'o', 'n']), (['u', 'n', 'i', 't', 's'], .str ['m', ' ', 's', '-', '1'])]),
  -- [[u3d]] name = uz; cmap = cmo.delta:piv0 [[[attrs]]] standard_name = sea_water_x_velocity; long_name = Sea water velocity along X; units = m s-1
  (['u', '3', 'd'], [(['n', 'a', 'm', 'e'], .str ['u', 'z']), (['c', 'm', 'a', 'p'], .str ['c', 'm', 'o', '.', 'd', 'e', 'l', 't', 'a', ':', 'p', 'i', 'v', '0'])],
    [(['s', 't', 'a', 'n', 'd', 'a', 'r', 'd', '_', 'n', 'a', 'm', 'e'], .str ['s', 'e', 'a', '_', 'w', 'a', 't', 'e', 'r', '_', 'x', '_', 'v', 'e', 'l', 'o', 'c', 'i', 't', 'y']), (['l', 'o', 'n', 'g', '_', 'n', 'a', 'm', 'e'], .str ['S', 'e', 'a', ' ', 'w', 'a', 't', 'e', 'r', ' ', 'v', 'e', 'l', 'o', 'c', 'i', 't', 'y', ' ', 'a', 'l', 'o', 'n', 'g', ' ', 'X']), (['u', 'n', 'i', 't', 's'], .str ['m', ' ', 's', '-', '1'])]),
  -- [[v3d]] name = vz; cmap = cmo.delta:piv0 [[[attrs]]] standard_name = sea_water_y_velocity; long_name = Sea water velocity along Y; units = m s-1
  (['v', '3', 'd'], [(['n', 'a', 'm', 'e'], .str ['v', 'z']), (['c', 'm', 'a', 'p'], .str ['c', 'm', 'o', '.', 'd', 'e', 'l', 't', 'a', ':', 'p', 'i', 'v', '0'])],
    [(['s', 't', 'a', 'n', 'd', 'a', 'r', 'd', '_', 'n', 'a', 'm', 'e'], .str ['s', 'e', 'a', '_', 'w', 'a', 't', 'e', 'r', '_', 'y', '_', 'v', 'e', 'l', 'o', 'c', 'i', 't', 'y']), (['l', 'o', 'n', 'g', '_', 'n', 'a', 'm', 'e'], .str ['S', 'e', 'a', ' ', 'w', 'a', 't', 'e', 'r', ' ', 'v', 'e', 'l', 'o', 'c', 'i', 't', 'y', ' ', 'a', 'l', 'o', 'n', 'g', ' ', 'Y']), (['u', 'n', 'i', 't', 's'], .str ['m', ' ', 's', '-', '1'])]),
  -- [[w3d]] name = wz; cmap = cmo.delta:piv0 [[[attrs]]] standard_name = sea_water_z_velocity_at_w_location,sea_water_z_velocity; long_name = Sea water velocity along Z at W location; units = m s-1
  (['w', '3', 'd'], [(['n', 'a', 'm', 'e'], .str ['w', 'z']), (['c', 'm', 'a', 'p'], .str ['c', 'm', 'o', '.', 'd', 'e', 'l', 't', 'a', ':', 'p', 'i', 'v', '0'])],
    [(['s', 't', 'a', 'n', 'd', 'a', 'r', 'd', '_', 'n', 'a', 'm', 'e'], .list [['s', 'e', 'a', '_', 'w', 'a', 't', 'e', 'r', '_', 'z', '_', 'v', 'e', 'l', 'o', 'c', 'i', 't', 'y', '_', 'a', 't', '_', 'w', '_', 'l', 'o', 'c', 'a', 't', 'i', 'o', 'n'], ['s', 'e', 'a', '_', 'w', 'a', 't', 'e', 'r', '_', 'z', '_', 'v', 'e', 'l', 'o', 'c', 'i', 't', 'y']]), (['l', 'o', 'n', 'g', '_', 'n', 'a', 'm', 'e'], .str ['S', 'e', 'a', ' ', 'w', 'a', 't', 'e', 'r', ' ', 'v', 'e', 'l', 'o', 'c', 'i', 't', 'y', ' ', 'a', 'l', 'o', 'n', 'g', ' ', 'Z', ' ', 'a', 't', ' ', 'W', ' ', 'l', 'o', 'c', 'a', 't', 'i', 'o', 'n']), (['u', 'n', 'i', 't', 's'], .str ['m', ' ', 's', '-', '1'])]),
  -- [[ubt]] name = u2d,u; cmap = cmo.delta:piv0 [[[attrs]]] standard_name = barotropic_sea_water_x_velocity; long_name = Sea water barotropic velocity along X; units = m s-1
  (['u', 'b', 't'], [(['n', 'a', 'm', 'e'], .list [['u', '2', 'd'], ['u']]), (['c', 'm', 'a', 'p'], .str ['c', 'm', 'o', '.', 'd', 'e', 'l', 't', 'a', ':', 'p', 'i', 'v', '0'])],
    [(['s', 't', 'a', 'n', 'd', 'a', 'r', 'd', '_', 'n', 'a', 'm', 'e'], .str ['b', 'a', 'r', 'o', 't', 'r', 'o', 'p', 'i', 'c', '_', 's', 'e', 'a', '_', 'w', 'a', 't', 'e', 'r', '_', 'x', '_', 'v', 'e', 'l', 'o', 'c', 'i', 't', 'y']), (['l', 'o', 'n', 'g', '_', 'n', 'a', 'm', 'e'], .str ['S', 'e', 'a', ' ', 'w', 'a', 't', 'e', 'r', ' ', 'b', 'a', 'r', 'o', 't', 'r', 'o', 'p', 'i', 'c', ' ', 'v', 'e', 'l', 'o', 'c', 'i', 't', 'y', ' ', 'a', 'l', 'o', 'n', 'g', ' ', 'X']), (['u', 'n', 'i', 't', 's'], .str ['m', ' ', 's', '-', '1'])]),
  -- [[vbt]] name = v2d,v; cmap = cmo.delta:piv0 [[[attrs]]] standard_name = barotropic_sea_water_y_velocity; long_name = Sea water barotropic velocity along Y; units = m s-1
  (['v', 'b', 't'], [(['n', 'a', 'm', 'e'], .list [['v', '2', 'd'], ['v']]), (['c', 'm', 'a', 'p'], .str ['c', 'm', 'o', '.', 'd', 'e', 'l', 't', 'a', ':', 'p', 'i', 'v', '0'])],
    [(['s', 't', 'a', 'n', 'd', 'a', 'r', 'd', '_', 'n', 'a', 'm', 'e'], .str ['b', 'a', 'r', 'o', 't', 'r', 'o', 'p', 'i', 'c', '_', 's', 'e', 'a', '_', 'w', 'a', 't', 'e', 'r', '_', 'y', '_', 'v', 'e', 'l', 'o', 'c', 'i', 't', 'y']), (['l', 'o', 'n', 'g', '_', 'n', 'a', 'm', 'e'], .str ['S', 'e', 'a', ' ', 'w', 'a', 't', 'e', 'r', ' ', 'b', 'a', 'r', 'o', 't', 'r', 'o', 'p', 'i', 'c', ' ', 'v', 'e', 'l', 'o', 'c', 'i', 't', 'y', ' ', 'a', 'l', 'o', 'n', 'g', ' ', 'Y']), (['u', 'n', 'i', 't', 's'], .str ['m', ' ', 's', '-', '1'])]),
  -- [[ubc]] name = u; cmap = cmo.delta:piv0 [[[attrs]]] standard_name = baroclinic_sea_water_x_velocity; long_name = Sea water baroclinic velocity along X; units = m s-1
  (['u', 'b', 'c'], [(['n', 'a', 'm', 'e'], .str ['u']), (['c', 'm', 'a', 'p'], .str ['c', 'm', 'o', '.', 'd', 'e', 'l', 't', 'a', ':', 'p', 'i', 'v', '0'])],
    [(['s', 't', 'a', 'n', 'd', 'a', 'r', 'd', '_', 'n', 'a', 'm', 'e'], .str ['b', 'a', 'r', 'o', 'c', 'l', 'i', 'n', 'i', 'c', '_', 's', 'e', 'a', '_', 'w', 'a', 't', 'e', 'r', '_', 'x', '_', 'v', 'e', 'l', 'o', 'c', 'i', 't', 'y']), (['l', 'o', 'n', 'g', '_', 'n', 'a', 'm', 'e'], .str ['S', 'e', 'a', ' ', 'w', 'a', 't', 'e', 'r', ' ', 'b', 'a', 'r', 'o', 'c', 'l', 'i', 'n', 'i', 'c', ' ', 'v', 'e', 'l', 'o', 'c', 'i', 't', 'y', ' ', 'a', 'l', 'o', 'n', 'g', ' ', 'X']), (['u', 'n', 'i', 't', 's'], .str ['m', ' ', 's', '-', '1'])]),
  -- [[vbc]] name = v [[[attrs]]] standard_name = baroclinic_sea_water_y_velocity; long_name = Sea water baroclinic velocity along Y; units = m s-1
  (['v', 'b', 'c'], [(['n', 'a', 'm', 'e'], .str ['v'])],
    [(['s', 't', 'a', 'n', 'd', 'a', 'r', 'd', '_', 'n', 'a', 'm', 'e'], .str ['b', 'a', 'r', 'o', 'c', 'l', 'i', 'n', 'i', 'c', '_', 's', 'e', 'a', '_', 'w', 'a', 't', 'e', 'r', '_', 'y', '_', 'v', 'e', 'l', 'o', 'c', 'i', 't', 'y']), (['l', 'o', 'n', 'g', '_', 'n', 'a', 'm', 'e'], .str ['S', 'e', 'a', ' ', 'w', 'a', 't', 'e', 'r', ' ', 'b', 'a', 'r', 'o', 'c', 'l', 'i', 'n', 'i', 'c', ' ', 'v', 'e', 'l', 'o', 'c', 'i', 't', 'y', ' ', 'a', 'l', 'o', 'n', 'g', ' ', 'Y']), (['u', 'n', 'i', 't', 's'], .str ['m', ' ', 's', '-', '1'])]),
  -- [[usurf]] cmap = cmo.delta:piv0 [[[attrs]]] standard_name = sea_surface_x_velocity,eastward_sea_water_velocity; long_name = Sea surface velocity along X,Eastward surface current,Eastward current; units = m s-1
  (['u', 's', 'u', 'r', 'f'], [(['c', 'm', 'a', 'p'], .str ['c', 'm', 'o', '.', 'd', 'e', 'l', 't', 'a', ':', 'p', 'i', 'v', '0'])],
    [(['s', 't', 'a', 'n', 'd', 'a', 'r', 'd', '_', 'n', 'a', 'm', 'e'], .list [['s', 'e', 'a', '_', 's', 'u', 'r', 'f', 'a', 'c', 'e', '_', 'x', '_', 'v', 'e', 'l', 'o', 'c', 'i', 't', 'y'], ['e', 'a', 's', 't', 'w', 'a', 'r', 'd', '_', 's', 'e', 'a', '_', 'w', 'a', 't', 'e', 'r', '_', 'v', 'e', 'l', 'o', 'c', 'i', 't', 'y']]), (['l', 'o', 'n', 'g', '_', 'n', 'a', 'm', 'e'], .list [['S', 'e', 'a', ' ', 's', 'u', 'r', 'f', 'a', 'c', 'e', ' ', 'v', 'e', 'l', 'o', 'c', 'i', 't', 'y', ' ', 'a', 'l', 'o', 'n', 'g', ' ', 'X'], ['E', 'a', 's', 't', 'w', 'a', 'r', 'd', ' ', 's', 'u', 'r', 'f', 'a', 'c', 'e', ' ', 'c', 'u', 'r', 'r', 'e', 'n', 't'], ['E', 'a', 's', 't', 'w', 'a', 'r', 'd', ' ', 'c', 'u', 'r', 'r', 'e', 'n', 't']]), (['u', 'n', 'i', 't', 's'], .str ['m', ' ', 's', '-', '1'])]),
  -- [[vsurf]] cmap = cmo.delta:piv0 [[[attrs]]] standard_name = sea_surface_y_velocity,northward_sea_water_velocity; long_name = Sea surface velocity along Y,Northward surface current,Northward current; units = m s-1
  (['v', 's', 'u', 'r', 'f'], [(['c', 'm', 'a', 'p'], .str ['c', 'm', 'o', '.', 'd', 'e', 'l', 't', 'a', ':', 'p', 'i', 'v', '0'])],
    [(['s', 't', 'a', 'n', 'd', 'a', 'r', 'd', '_', 'n', 'a', 'm', 'e'], .list [['s', 'e', 'a', '_', 's', 'u', 'r', 'f', 'a', 'c', 'e', '_', 'y', '_', 'v', 'e', 'l', 'o', 'c', 'i', 't', 'y'], ['n', 'o', 'r', 't', 'h', 'w', 'a', 'r', 'd', '_', 's', 'e', 'a', '_', 'w', 'a', 't', 'e', 'r', '_', 'v', 'e', 'l', 'o', 'c', 'i', 't', 'y']]), (['l', 'o', 'n', 'g', '_', 'n', 'a', 'm', 'e'], .list [['S', 'e', 'a', ' ', 's', 'u', 'r', 'f', 'a', 'c', 'e', ' ', 'v', 'e', 'l', 'o', 'c', 'i', 't', 'y', ' ', 'a', 'l', 'o', 'n', 'g', ' ', 'Y'], ['N', 'o', 'r', 't', 'h', 'w', 'a', 'r', 'd', ' ', 's', 'u', 'r', 'f', 'a', 'c', 'e', ' ', 'c', 'u', 'r', 'r', 'e', 'n', 't'], ['N', 'o', 'r', 't', 'h', 'w', 'a', 'r', 'd', ' ', 'c', 'u', 'r', 'r', 'e', 'n', 't']]), (['u', 'n', 'i', 't', 's'], .str ['m', ' ', 's', '-', '1'])]),
  -- [[ugbt]] cmap = cmo.delta:piv0 [[[attrs]]] standard_name = barotropic_sea_water_x_geostrophic_velocity,eastward_geostrophic_current_velocity; long_name = Sea water barotropic geostrophic velocity along X; units = m s-1
  (['u', 'g', 'b', 't'], [(['c', 'm', 'a', 'p'], .str ['c', 'm', 'o', '.', 'd', 'e', 'l', 't', 'a', ':', 'p', 'i', 'v', '0'])],
    [(['s', 't', 'a', 'n', 'd', 'a', 'r', 'd', '_', 'n', 'a', 'm', 'e'], .list [['b', 'a', 'r', 'o', 't', 'r', 'o', 'p', 'i', 'c', '_', 's', 'e', 'a', '_', 'w', 'a', 't', 'e', 'r', '_', 'x', '_', 'g', 'e', 'o', 's', 't', 'r', 'o', 'p', 'h', 'i', 'c', '_', 'v', 'e', 'l', 'o', 'c', 'i', 't', 'y'], ['e', 'a', 's', 't', 'w', 'a', 'r', 'd', '_', 'g', 'e', 'o', 's', 't', 'r', 'o', 'p', 'h', 'i', 'c', '_', 'c', 'u', 'r', 'r', 'e', 'n', 't', '_', 'v', 'e', 'l', 'o', 'c', 'i', 't', 'y']]), (['l', 'o', 'n', 'g', '_', 'n', 'a', 'm', 'e'], .str ['S', 'e', 'a', ' ', 'w', 'a', 't', 'e', 'r', ' ', 'b', 'a', 'r', 'o', 't', 'r', 'o', 'p', 'i', 'c', ' ', 'g', 'e', 'o', 's', 't', 'r', 'o', 'p', 'h', 'i', 'c', ' ', 'v', 'e', 'l', 'o', 'c', 'i', 't', 'y', ' ', 'a', 'l', 'o', 'n', 'g', ' ', 'X']), (['u', 'n', 'i', 't', 's'], .str ['m', ' ', 's', '-', '1'])]),
  -- [[vgbt]] cmap = cmo.delta:piv0 [[[attrs]]] standard_name = barotropic_sea_water_y_geostrophic_velocity,northward_geostrophic_current_velocity; long_name = Sea water barotropic geostrophic velocity along Y; units = m s-1
  (['v', 'g', 'b', 't'], [(['c', 'm', 'a', 'p'], .str ['c', 'm', 'o', '.', 'd', 'e', 'l', 't', 'a', ':', 'p', 'i', 'v', '0'])],
    [(['s', 't', 'a', 'n', 'd', 'a', 'r', 'd', '_', 'n', 'a', 'm', 'e'], .list [['b', 'a', 'r', 'o', 't', 'r', 'o', 'p', 'i', 'c', '_', 's', 'e', 'a', '_', 'w', 'a', 't', 'e', 'r', '_', 'y', '_', 'g', 'e', 'o', 's', 't', 'r', 'o', 'p', 'h', 'i', 'c', '_', 'v', 'e', 'l', 'o', 'c', 'i', 't', 'y'], ['n', 'o', 'r', 't', 'h', 'w', 'a', 'r', 'd', '_', 'g', 'e', 'o', 's', 't', 'r', 'o', 'p', 'h', 'i', 'c', '_', 'c', 'u', 'r', 'r', 'e', 'n', 't', '_', 'v', 'e', 'l', 'o', 'c', 'i', 't', 'y']]), (['l', 'o', 'n', 'g', '_', 'n', 'a', 'm', 'e'], .str ['S', 'e', 'a', ' ', 'w', 'a', 't', 'e', 'r', ' ', 'b', 'a', 'r', 'o', 't', 'r', 'o', 'p', 'i', 'c', ' ', 'g', 'e', 'o', 's', 't', 'r', 'o', 'p', 'h', 'i', 'c', ' ', 'v', 'e', 'l', 'o', 'c', 'i', 't', 'y', ' ', 'a', 'l', 'o', 'n', 'g', ' ', 'Y']), (['u', 'n', 'i', 't', 's'], .str ['m', ' ', 's', '-', '1'])]),
  -- [[cspd]] cmap = cmo.amp [[[attrs]]] standard_name = sea_water_speed; long_name = Sea water speed; units = m s-1
  (['c', 's', 'p', 'd'], [(['c', 'm', 'a', 'p'], .str ['c', 'm', 'o', '.', 'a', 'm', 'p'])],
    [(['s', 't', 'a', 'n', 'd', 'a', 'r', 'd', '_', 'n', 'a', 'm', 'e'], .str ['s', 'e', 'a', '_', 'w', 'a', 't', 'e', 'r', '_', 's', 'p', 'e', 'e', 'd']), (['l', 'o', 'n', 'g', '_', 'n', 'a', 'm', 'e'], .str ['S', 'e', 'a', ' ', 'w', 'a', 't', 'e', 'r', ' ', 's', 'p', 'e', 'e', 'd']), (['u', 'n', 'i', 't', 's'], .str ['m', ' ', 's', '-', '1'])]),
  -- [[speed]] inherit = cspd
  (['s', 'p', 'e', 'e', 'd'], [(['i', 'n', 'h', 'e', 'r', 'i', 't'], .str ['c', 's', 'p', 'd'])],
    []),
  -- [[cdir]] cmap = cmo.phase:cyc360 [[[attrs]]] standard_name = direction_of_sea_water_velocity; long_name = Direction of sea water velocity; units = degrees
  (['c', 'd', 'i', 'r'], [(['c', 'm', 'a', 'p'], .str ['c', 'm', 'o', '.', 'p', 'h', 'a', 's', 'e', ':', 'c', 'y', 'c', '3', '6', '0'])],
    [(['s', 't', 'a', 'n', 'd', 'a', 'r', 'd', '_', 'n', 'a', 'm', 'e'], .str ['d', 'i', 'r', 'e', 'c', 't', 'i', 'o', 'n', '_', 'o', 'f', '_', 's', 'e', 'a', '_', 'w', 'a', 't', 'e', 'r', '_', 'v', 'e', 'l', 'o', 'c', 'i', 't', 'y']), (['l', 'o', 'n', 'g', '_', 'n', 'a', 'm', 'e'], .str ['D', 'i', 'r', 'e', 'c', 't', 'i', 'o', 'n', ' ', 'o', 'f', ' ', 's', 'e', 'a', ' ', 'w', 'a', 't', 'e', 'r', ' ', 'v', 'e', 'l', 'o', 'c', 'i', 't', 'y']), (['u', 'n', 'i', 't', 's'], .str ['d', 'e', 'g', 'r', 'e', 'e', 's'])]),
  -- [[ke]]  [[[attrs]]] standard_names = kinetic_energy; long_name = Kinetic energy; units = m2 s-2
  (['k', 'e'], [],
    [(['s', 't', 'a', 'n', 'd', 'a', 'r', 'd', '_', 'n', 'a', 'm', 'e', 's'], .str ['k', 'i', 'n', 'e', 't', 'i', 'c', '_', 'e', 'n', 'e', 'r', 'g', 'y']), (['l', 'o', 'n', 'g', '_', 'n', 'a', 'm', 'e'], .str ['K', 'i', 'n', 'e', 't', 'i', 'c', ' ', 'e', 'n', 'e', 'r', 'g', 'y']), (['u', 'n', 'i', 't', 's'], .str ['m', '2', ' ', 's', '-', '2'])]),
  -- [[eke]]  [[[attrs]]] standard_names = eddy_kinetic_energy; long_name = Eddy kinetic energy; units = m2 s-2
  (['e', 'k', 'e'], [],
    [(['s', 't', 'a', 'n', 'd', 'a', 'r', 'd', '_', 'n', 'a', 'm', 'e', 's'], .str ['e', 'd', 'd', 'y', '_', 'k', 'i', 'n', 'e', 't', 'i', 'c', '_', 'e', 'n', 'e', 'r', 'g', 'y']), (['l', 'o', 'n', 'g', '_', 'n', 'a', 'm', 'e'], .str ['E', 'd', 'd', 'y', ' ', 'k', 'i', 'n', 'e', 't', 'i', 'c', ' ', 'e', 'n', 'e', 'r', 'g', 'y']), (['u', 'n', 'i', 't', 's'], .str ['m', '2', ' ', 's', '-', '2'])]),
  -- [[tke]]  [[[attrs]]] standard_names = turbulent_kinetic_energy; long_name = Turbulent kinetic energy; units = m2 s-2
  (['t', 'k', 'e'], [],
    [(['s', 't', 'a', 'n', 'd', 'a', 'r', 'd', '_', 'n', 'a', 'm', 'e', 's'], .str ['t', 'u', 'r', 'b', 'u', 'l', 'e', 'n', 't', '_', 'k', 'i', 'n', 'e', 't', 'i', 'c', '_', 'e', 'n', 'e', 'r', 'g', 'y']), (['l', 'o', 'n', 'g', '_', 'n', 'a', 'm', 'e'], .str ['T', 'u', 'r', 'b', 'u', 'l', 'e', 'n', 't', ' ', 'k', 'i', 'n', 'e', 't', 'i', 'c', ' ', 'e', 'n', 'e', 'r', 'g', 'y']), (['u', 'n', 'i', 't', 's'], .str ['m', '2', ' ', 's', '-', '2'])]),
  -- [[mke]] standard_names = mean_kinetic_energy; long_name = Mean kinetic energy; units = m2 s-2
  (['m', 'k', 'e'], [(['s', 't', 'a', 'n', 'd', 'a', 'r', 'd', '_', 'n', 'a', 'm', 'e', 's'], .str ['m', 'e', 'a', 'n', '_', 'k', 'i', 'n', 'e', 't', 'i', 'c', '_', 'e', 'n', 'e', 'r', 'g', 'y']), (['l', 'o', 'n', 'g', '_', 'n', 'a', 'm', 'e'], .str ['M', 'e', 'a', 'n', ' ', 'k', 'i', 'n', 'e', 't', 'i', 'c', ' ', 'e', 'n', 'e', 'r', 'g', 'y']), (['u', 'n', 'i', 't', 's'], .str ['m', '2', ' ', 's', '-', '2'])],
    []),
  -- [[kz]] name = kz,kzm [[[attrs]]] standard_name = average_ocean_vertical_tracer_diffusivity; long_name = Vertical diffusivity; units = m2 s-1
  (['k', 'z'], [(['n', 'a', 'm', 'e'], .list [['k', 'z'], ['k', 'z', 'm']])],
    [(['s', 't', 'a', 'n', 'd', 'a', 'r', 'd', '_', 'n', 'a', 'm', 'e'], .str ['a', 'v', 'e', 'r', 'a', 'g', 'e', '_', 'o', 'c', 'e', 'a', 'n', '_', 'v', 'e', 'r', 't', 'i', 'c', 'a', 'l', '_', 't', 'r', 'a', 'c', 'e', 'r', '_', 'd', 'i', 'f', 'f', 'u', 's', 'i', 'v', 'i', 't', 'y']), (['l', 'o', 'n', 'g', '_', 'n', 'a', 'm', 'e'], .str ['V', 'e', 'r', 't', 'i', 'c', 'a', 'l', ' ', 'd', 'i', 'f', 'f', 'u', 's', 'i', 'v', 'i', 't', 'y']), (['u', 'n', 'i', 't', 's'], .str ['m', '2', ' ', 's', '-', '1'])]),
  -- [[vaisa]] name = vaisala [[[attrs]]] standard_name = brunt_vaisala_frequency_in_sea_water, brunt_vaisala_frequency; long_name = Brunt Vaisala frequency; units = s-1
  (['v', 'a', 'i', 's', 'a'], [(['n', 'a', 'm', 'e'], .str ['v', 'a', 'i', 's', 'a', 'l', 'a'])],
    [(['s', 't', 'a', 'n', 'd', 'a', 'r', 'd', '_', 'n', 'a', 'm', 'e'], .list [['b', 'r', 'u', 'n', 't', '_', 'v', 'a', 'i', 's', 'a', 'l', 'a', '_', 'f', 'r', 'e', 'q', 'u', 'e', 'n', 'c', 'y', '_', 'i', 'n', '_', 's', 'e', 'a', '_', 'w', 'a', 't', 'e', 'r'], ['b', 'r', 'u', 'n', 't', '_', 'v', 'a', 'i', 's', 'a', 'l', 'a', '_', 'f', 'r', 'e', 'q', 'u', 'e', 'n', 'c', 'y']]), (['l', 'o', 'n', 'g', '_', 'n', 'a', 'm', 'e'], .str ['B', 'r', 'u', 'n', 't', ' ', 'V', 'a', 'i', 's', 'a', 'l', 'a', ' ', 'f', 'r', 'e', 'q', 'u', 'e', 'n', 'c', 'y']), (['u', 'n', 'i', 't', 's'], .str ['s', '-', '1'])]),
  -- [[bathy]] name = h0,dpt; cmap = cmo.deep [[[attrs]]] standard_name = model_sea_floor_depth_below_sea_level,model_sea_floor_depth_below_geoid,sea_floor_depth_below_geoid; long_name = Bathymetry; units = m
  (['b', 'a', 't', 'h', 'y'], [(['n', 'a', 'm', 'e'], .list [['h', '0'], ['d', 'p', 't']]), (['c', 'm', 'a', 'p'], .str ['c', 'm', 'o', '.', 'd', 'e', 'e', 'p'])],
    [(['s', 't', 'a', 'n', 'd', 'a', 'r', 'd', '_', 'n', 'a', 'm', 'e'], .list [['m', 'o', 'd', 'e', 'l', '_', 's', 'e', 'a', '_', 'f', 'l', 'o', 'o', 'r', '_', 'd', 'e', 'p', 't', 'h', '_', 'b', 'e', 'l', 'o', 'w', '_', 's', 'e', 'a', '_', 'l', 'e', 'v', 'e', 'l'], ['m', 'o', 'd', 'e', 'l', '_', 's', 'e', 'a', '_', 'f', 'l', 'o', 'o', 'r', '_', 'd', 'e', 'p', 't', 'h', '_', 'b', 'e', 'l', 'o', 'w', '_', 'g', 'e', 'o', 'i', 'd'], ['s', 'e', 'a', '_', 'f', 'l', 'o', 'o', 'r', '_', 'd', 'e', 'p', 't', 'h', '_', 'b', 'e', 'l', 'o', 'w', '_', 'g', 'e', 'o', 'i', 'd']]), (['l', 'o', 'n', 'g', '_', 'n', 'a', 'm', 'e'], .str ['B', 'a', 't', 'h', 'y', 'm', 'e', 't', 'r', 'y']), (['u', 'n', 'i', 't', 's'], .str ['m'])]),
  -- [[meanlev]] name = niv_moy [[[attrs]]] standard_name = mean_sea_level_above_sea_floor_depth_at_lowest_astronomical_tide,mean_sea_level; long_name = Mean Sea Level; units = m
  (['m', 'e', 'a', 'n', 'l', 'e', 'v'], [(['n', 'a', 'm', 'e'], .str ['n', 'i', 'v', '_', 'm', 'o', 'y'])],
    [(['s', 't', 'a', 'n', 'd', 'a', 'r', 'd', '_', 'n', 'a', 'm', 'e'], .list [['m', 'e', 'a', 'n', '_', 's', 'e', 'a', '_', 'l', 'e', 'v', 'e', 'l', '_', 'a', 'b', 'o', 'v', 'e', '_', 's', 'e', 'a', '_', 'f', 'l', 'o', 'o', 'r', '_', 'd', 'e', 'p', 't', 'h', '_', 'a', 't', '_', 'l', 'o', 'w', 'e', 's', 't', '_', 'a', 's', 't', 'r', 'o', 'n', 'o', 'm', 'i', 'c', 'a', 'l', '_', 't', 'i', 'd', 'e'], ['m', 'e', 'a', 'n', '_', 's', 'e', 'a', '_', 'l', 'e', 'v', 'e', 'l']]), (['l', 'o', 'n', 'g', '_', 'n', 'a', 'm', 'e'], .str ['M', 'e', 'a', 'n', ' ', 'S', 'e', 'a', ' ', 'L', 'e', 'v', 'e', 'l']), (['u', 'n', 'i', 't', 's'], .str ['m'])]),
  -- [[depth]] name = dep; cmap = cmo.deep [[[attrs]]] standard_name = ocean_layer_depth; long_name = Depth; units = m
  (['d', 'e', 'p', 't', 'h'], [(['n', 'a', 'm', 'e'], .str ['d', 'e', 'p']), (['c', 'm', 'a', 'p'], .str ['c', 'm', 'o', '.', 'd', 'e', 'e', 'p'])],
    [(['s', 't', 'a', 'n', 'd', 'a', 'r', 'd', '_', 'n', 'a', 'm', 'e'], .str ['o', 'c', 'e', 'a', 'n', '_', 'l', 'a', 'y', 'e', 'r', '_', 'd', 'e', 'p', 't', 'h']), (['l', 'o', 'n', 'g', '_', 'n', 'a', 'm', 'e'], .str ['D', 'e', 'p', 't', 'h']), (['u', 'n', 'i', 't', 's'], .str ['m'])]),
  -- [[altitude]] name = altitudet,altitudeu,altitudev; cmap = cmo.deep [[[attrs]]] standard_name = atmosphere_layer_altitude; long_name = Altitude; units = m
  (['a', 'l', 't', 'i', 't', 'u', 'd', 'e'], [(['n', 'a', 'm', 'e'], .list [['a', 'l', 't', 'i', 't', 'u', 'd', 'e', 't'], ['a', 'l', 't', 'i', 't', 'u', 'd', 'e', 'u'], ['a', 'l', 't', 'i', 't', 'u', 'd', 'e', 'v']]), (['c', 'm', 'a', 'p'], .str ['c', 'm', 'o', '.', 'd', 'e', 'e', 'p'])],
    [(['s', 't', 'a', 'n', 'd', 'a', 'r', 'd', '_', 'n', 'a', 'm', 'e'], .str ['a', 't', 'm', 'o', 's', 'p', 'h', 'e', 'r', 'e', '_', 'l', 'a', 'y', 'e', 'r', '_', 'a', 'l', 't', 'i', 't', 'u', 'd', 'e']), (['l', 'o', 'n', 'g', '_', 'n', 'a', 'm', 'e'], .str ['A', 'l', 't', 'i', 't', 'u', 'd', 'e']), (['u', 'n', 'i', 't', 's'], .str ['m'])]),
  -- [[dx]]  [[[attrs]]] standard_name = cell_x_size; long_name = Mesh size along x; units = m
  (['d', 'x'], [],
    [(['s', 't', 'a', 'n', 'd', 'a', 'r', 'd', '_', 'n', 'a', 'm', 'e'], .str ['c', 'e', 'l', 'l', '_', 'x', '_', 's', 'i', 'z', 'e']), (['l', 'o', 'n', 'g', '_', 'n', 'a', 'm', 'e'], .str ['M', 'e', 's', 'h', ' ', 's', 'i', 'z', 'e', ' ', 'a', 'l', 'o', 'n', 'g', ' ', 'x']), (['u', 'n', 'i', 't', 's'], .str ['m'])]),
  -- [[dy]]  [[[attrs]]] standard_name = cell_y_size; long_name = Mesh size along y; units = m
  (['d', 'y'], [],
    [(['s', 't', 'a', 'n', 'd', 'a', 'r', 'd', '_', 'n', 'a', 'm', 'e'], .str ['c', 'e', 'l', 'l', '_', 'y', '_', 's', 'i', 'z', 'e']), (['l', 'o', 'n', 'g', '_', 'n', 'a', 'm', 'e'], .str ['M', 'e', 's', 'h', ' ', 's', 'i', 'z', 'e', ' ', 'a', 'l', 'o', 'n', 'g', ' ', 'y']), (['u', 'n', 'i', 't', 's'], .str ['m'])]),
  -- [[ex]]  [[[attrs]]] standard_name = inverse_of_cell_x_size; long_name = Inverse of mesh size along x; units = m-1
  (['e', 'x'], [],
    [(['s', 't', 'a', 'n', 'd', 'a', 'r', 'd', '_', 'n', 'a', 'm', 'e'], .str ['i', 'n', 'v', 'e', 'r', 's', 'e', '_', 'o', 'f', '_', 'c', 'e', 'l', 'l', '_', 'x', '_', 's', 'i', 'z', 'e']), (['l', 'o', 'n', 'g', '_', 'n', 'a', 'm', 'e'], .str ['I', 'n', 'v', 'e', 'r', 's', 'e', ' ', 'o', 'f', ' ', 'm', 'e', 's', 'h', ' ', 's', 'i', 'z', 'e', ' ', 'a', 'l', 'o', 'n', 'g', ' ', 'x']), (['u', 'n', 'i', 't', 's'], .str ['m', '-', '1'])]),
  -- [[ey]]  [[[attrs]]] standard_name = inverse_of_cell_y_size; long_name = Inverse of mesh size along y; units = m-1
  (['e', 'y'], [],
    [(['s', 't', 'a', 'n', 'd', 'a', 'r', 'd', '_', 'n', 'a', 'm', 'e'], .str ['i', 'n', 'v', 'e', 'r', 's', 'e', '_', 'o', 'f', '_', 'c', 'e', 'l', 'l', '_', 'y', '_', 's', 'i', 'z', 'e']), (['l', 'o', 'n', 'g', '_', 'n', 'a', 'm', 'e'], .str ['I', 'n', 'v', 'e', 'r', 's', 'e', ' ', 'o', 'f', ' ', 'm', 'e', 's', 'h', ' ', 's', 'i', 'z', 'e', ' ', 'a', 'l', 'o', 'n', 'g', ' ', 'y']), (['u', 'n', 'i', 't', 's'], .str ['m', '-', '1'])]),
  -- [[dz]]  [[[attrs]]] standard_name = ocean_layer_thickness; long_name = Ocean layer thickness; units = m
  (['d', 'z'], [],
    [(['s', 't', 'a', 'n', 'd', 'a', 'r', 'd', '_', 'n', 'a', 'm', 'e'], .str ['o', 'c', 'e', 'a', 'n', '_', 'l', 'a', 'y', 'e', 'r', '_', 't', 'h', 'i', 'c', 'k', 'n', 'e', 's', 's']), (['l', 'o', 'n', 'g', '_', 'n', 'a', 'm', 'e'], .str ['O', 'c', 'e', 'a', 'n', ' ', 'l', 'a', 'y', 'e', 'r', ' ', 't', 'h', 'i', 'c', 'k', 'n', 'e', 's', 's']), (['u', 'n', 'i', 't', 's'], .str ['m'])]),
  -- [[dlon]]  [[[attrs]]] standard_name = cell_x_size,cell_x_step; long_name = Mesh size along x; units = degrees
  (['d', 'l', 'o', 'n'], [],
    [(['s', 't', 'a', 'n', 'd', 'a', 'r', 'd', '_', 'n', 'a', 'm', 'e'], .list [['c', 'e', 'l', 'l', '_', 'x', '_', 's', 'i', 'z', 'e'], ['c', 'e', 'l', 'l', '_', 'x', '_', 's', 't', 'e', 'p']]), (['l', 'o', 'n', 'g', '_', 'n', 'a', 'm', 'e'], .str ['M', 'e', 's', 'h', ' ', 's', 'i', 'z', 'e', ' ', 'a', 'l', 'o', 'n', 'g', ' ', 'x']), (['u', 'n', 'i', 't', 's'], .str ['d', 'e', 'g', 'r', 'e', 'e', 's'])]),
  -- [[dlat]]  [[[attrs]]] standard_name = cell_y_step,cell_y_size; long_name = Mesh step along y; units = degrees
  (['d', 'l', 'a', 't'], [],
    [(['s', 't', 'a', 'n', 'd', 'a', 'r', 'd', '_', 'n', 'a', 'm', 'e'], .list [['c', 'e', 'l', 'l', '_', 'y', '_', 's', 't', 'e', 'p'], ['c', 'e', 'l', 'l', '_', 'y', '_', 's', 'i', 'z', 'e']]), (['l', 'o', 'n', 'g', '_', 'n', 'a', 'm', 'e'], .str ['M', 'e', 's', 'h', ' ', 's', 't', 'e', 'p', ' ', 'a', 'l', 'o', 'n', 'g', ' ', 'y']), (['u', 'n', 'i', 't', 's'], .str ['d', 'e', 'g', 'r', 'e', 'e', 's'])]),
  -- [[cvol]]  [[[attrs]]] standard_name = cell_volume; long_name = Volume of the cell; units = m3
  (['c', 'v', 'o', 'l'], [],
    [(['s', 't', 'a', 'n', 'd', 'a', 'r', 'd', '_', 'n', 'a', 'm', 'e'], .str ['c', 'e', 'l', 'l', '_', 'v', 'o', 'l', 'u', 'm', 'e']), (['l', 'o', 'n', 'g', '_', 'n', 'a', 'm', 'e'], .str ['V', 'o', 'l', 'u', 'm', 'e', ' ', 'o', 'f', ' ', 't', 'h', 'e', ' ', 'c', 'e', 'l', 'l']), (['u', 'n', 'i', 't', 's'], .str ['m', '3'])]),
  -- [[vol]]  [[[attrs]]] standard_name = seawater_volume; long_name = Volume of the sea water; units = m3
  (['v', 'o', 'l'], [],
    [(['s', 't', 'a', 'n', 'd', 'a', 'r', 'd', '_', 'n', 'a', 'm', 'e'], .str ['s', 'e', 'a', 'w', 'a', 't', 'e', 'r', '_', 'v', 'o', 'l', 'u', 'm', 'e']), (['l', 'o', 'n', 'g', '_', 'n', 'a', 'm', 'e'], .str ['V', 'o', 'l', 'u', 'm', 'e', ' ', 'o', 'f', ' ', 't', 'h', 'e', ' ', 's', 'e', 'a', ' ', 'w', 'a', 't', 'e', 'r']), (['u', 'n', 'i', 't', 's'], .str ['m', '3'])]),
  -- [[corio]] name = f0 [[[attrs]]] standard_name = coriolis_parameter; long_name = Coriolis parameter; units = s-1
  (['c', 'o', 'r', 'i', 'o'], [(['n', 'a', 'm', 'e'], .str ['f', '0'])],
    [(['s', 't', 'a', 'n', 'd', 'a', 'r', 'd', '_', 'n', 'a', 'm', 'e'], .str ['c', 'o', 'r', 'i', 'o', 'l', 'i', 's', '_', 'p', 'a', 'r', 'a', 'm', 'e', 't', 'e', 'r']), (['l', 'o', 'n', 'g', '_', 'n', 'a', 'm', 'e'], .str ['C', 'o', 'r', 'i', 'o', 'l', 'i', 's', ' ', 'p', 'a', 'r', 'a', 'm', 'e', 't', 'e', 'r']), (['u', 'n', 'i', 't', 's'], .str ['s', '-', '1'])]),
  -- [[beta]]  [[[attrs]]] standard_name = meridional_derivative_of_coriolis_parameter; long_name = Meridional derivative of coriolis parameter; units = m-1 s-1
  (['b', 'e', 't', 'a'], [],
    [(['s', 't', 'a', 'n', 'd', 'a', 'r', 'd', '_', 'n', 'a', 'm', 'e'], .str ['m', 'e', 'r', 'i', 'd', 'i', 'o', 'n', 'a', 'l', '_', 'd', 'e', 'r', 'i', 'v', 'a', 't', 'i', 'v', 'e', '_', 'o', 'f', '_', 'c', 'o', 'r', 'i', 'o', 'l', 'i', 's', '_', 'p', 'a', 'r', 'a', 'm', 'e', 't', 'e', 'r']), (['l', 'o', 'n', 'g', '_', 'n', 'a', 'm', 'e'], .str ['M', 'e', 'r', 'i', 'd', 'i', 'o', 'n', 'a', 'l', ' ', 'd', 'e', 'r', 'i', 'v', 'a', 't', 'i', 'v', 'e', ' ', 'o', 'f', ' ', 'c', 'o', 'r', 'i', 'o', 'l', 'i', 's', ' ', 'p', 'a', 'r', 'a', 'm', 'e', 't', 'e', 'r']), (['u', 'n', 'i', 't', 's'], .str ['m', '-', '1', ' ', 's', '-', '1'])]),
  -- [[oro]] name = zs [[[attrs]]] standard_name = orography; long_name = Orography for SLEVE vertical coordinates; units = m
  (['o', 'r', 'o'], [(['n', 'a', 'm', 'e'], .str ['z', 's'])],
    [(['s', 't', 'a', 'n', 'd', 'a', 'r', 'd', '_', 'n', 'a', 'm', 'e'], .str ['o', 'r', 'o', 'g', 'r', 'a', 'p', 'h', 'y']), (['l', 'o', 'n', 'g', '_', 'n', 'a', 'm', 'e'], .str ['O', 'r', 'o', 'g', 'r', 'a', 'p', 'h', 'y', ' ', 'f', 'o', 'r', ' ', 'S', 'L', 'E', 'V', 'E', ' ', 'v', 'e', 'r', 't', 'i', 'c', 'a', 'l', ' ', 'c', 'o', 'o', 'r', 'd', 'i', 'n', 'a', 't', 'e', 's']), (['u', 'n', 'i', 't', 's'], .str ['m'])]),
  -- [[orosm]]  [[[attrs]]] standard_name = smoothed_orography; long_name = Smoothed orography for SLEVE vertical coordinates; units = m
  (['o', 'r', 'o', 's', 'm'], [],
    [(['s', 't', 'a', 'n', 'd', 'a', 'r', 'd', '_', 'n', 'a', 'm', 'e'], .str ['s', 'm', 'o', 'o', 't', 'h', 'e', 'd', '_', 'o', 'r', 'o', 'g', 'r', 'a', 'p', 'h', 'y']), (['l', 'o', 'n', 'g', '_', 'n', 'a', 'm', 'e'], .str ['S', 'm', 'o', 'o', 't', 'h', 'e', 'd', ' ', 'o', 'r', 'o', 'g', 'r', 'a', 'p', 'h', 'y', ' ', 'f', 'o', 'r', ' ', 'S', 'L', 'E', 'V', 'E', ' ', 'v', 'e', 'r', 't', 'i', 'c', 'a', 'l', ' ', 'c', 'o', 'o', 'r', 'd', 'i', 'n', 'a', 't', 'e', 's']), (['u', 'n', 'i', 't', 's'], .str ['m'])]),
  -- [[nethf]] name = nethf; cmap = cmo.curl:piv0 [[[attrs]]] standard_name = surface_net_averaged_downward_radiative_flux,surface_net_downward_radiative_flux; long_name = Net radiation; units = W m-2
  (['n', 'e', 't', 'h', 'f'], [(['n', 'a', 'm', 'e'], .str ['n', 'e', 't', 'h', 'f']), (['c', 'm', 'a', 'p'], .str ['c', 'm', 'o', '.', 'c', 'u', 'r', 'l', ':', 'p', 'i', 'v', '0'])],
    [(['s', 't', 'a', 'n', 'd', 'a', 'r', 'd', '_', 'n', 'a', 'm', 'e'], .list [['s', 'u', 'r', 'f', 'a', 'c', 'e', '_', 'n', 'e', 't', '_', 'a', 'v', 'e', 'r', 'a', 'g', 'e', 'd', '_', 'd', 'o', 'w', 'n', 'w', 'a', 'r', 'd', '_', 'r', 'a', 'd', 'i', 'a', 't', 'i', 'v', 'e', '_', 'f', 'l', 'u', 'x'], ['s', 'u', 'r', 'f', 'a', 'c', 'e', '_', 'n', 'e', 't', '_', 'd', 'o', 'w', 'n', 'w', 'a', 'r', 'd', '_', 'r', 'a', 'd', 'i', 'a', 't', 'i', 'v', 'e', '_', 'f', 'l', 'u', 'x']]), (['l', 'o', 'n', 'g', '_', 'n', 'a', 'm', 'e'], .str ['N', 'e', 't', ' ', 'r', 'a', 'd', 'i', 'a', 't', 'i', 'o', 'n']), (['u', 'n', 'i', 't', 's'], .str ['W', ' ', 'm', '-', '2'])]),
  -- [[lwnhf]] cmap = cmo.solar [[[attrs]]] standard_name = surface_net_downward_longwave_flux; long_name = Net longwave radiation (positive when directed downward); units = W m-2
  (['l', 'w', 'n', 'h', 'f'], [(['c', 'm', 'a', 'p'], .str ['c', 'm', 'o', '.', 's', 'o', 'l', 'a', 'r'])],
    [(['s', 't', 'a', 'n', 'd', 'a', 'r', 'd', '_', 'n', 'a', 'm', 'e'], .str ['s', 'u', 'r', 'f', 'a', 'c', 'e', '_', 'n', 'e', 't', '_', 'd', 'o', 'w', 'n', 'w', 'a', 'r', 'd', '_', 'l', 'o', 'n', 'g', 'w', 'a', 'v', 'e', '_', 'f', 'l', 'u', 'x']), (['l', 'o', 'n', 'g', '_', 'n', 'a', 'm', 'e'], .str ['N', 'e', 't', ' ', 'l', 'o', 'n', 'g', 'w', 'a', 'v', 'e', ' ', 'r', 'a', 'd', 'i', 'a', 't', 'i', 'o', 'n', ' ', '(', 'p', 'o', 's', 'i', 't', 'i', 'v', 'e', ' ', 'w', 'h', 'e', 'n', ' ', 'd', 'i', 'r', 'e', 'c', 't', 'e', 'd', ' ', 'd', 'o', 'w', 'n', 'w', 'a', 'r', 'd', ')']), (['u', 'n', 'i', 't', 's'], .str ['W', ' ', 'm', '-', '2'])]),
  -- [[swnhf]] cmap = cmo.solar [[[attrs]]] standard_name = surface_net_downward_shortwave_flux; long_name = Net shortwave radiation (positive when directed downward); units = W m-2
  (['s', 'w', 'n', 'h', 'f'], [(['c', 'm', 'a', 'p'], .str ['c', 'm', 'o', '.', 's', 'o', 'l', 'a', 'r'])],
    [(['s', 't', 'a', 'n', 'd', 'a', 'r', 'd', '_', 'n', 'a', 'm', 'e'], .str ['s', 'u', 'r', 'f', 'a', 'c', 'e', '_', 'n', 'e', 't', '_', 'd', 'o', 'w', 'n', 'w', 'a', 'r', 'd', '_', 's', 'h', 'o', 'r', 't', 'w', 'a', 'v', 'e', '_', 'f', 'l', 'u', 'x']), (['l', 'o', 'n', 'g', '_', 'n', 'a', 'm', 'e'], .str ['N', 'e', 't', ' ', 's', 'h', 'o', 'r', 't', 'w', 'a', 'v', 'e', ' ', 'r', 'a', 'd', 'i', 'a', 't', 'i', 'o', 'n', ' ', '(', 'p', 'o', 's', 'i', 't', 'i', 'v', 'e', ' ', 'w', 'h', 'e', 'n', ' ', 'd', 'i', 'r', 'e', 'c', 't', 'e', 'd', ' ', 'd', 'o', 'w', 'n', 'w', 'a', 'r', 'd', ')']), (['u', 'n', 'i', 't', 's'], .str ['W', ' ', 'm', '-', '2'])]),
  -- [[ghf]] name = ghf; cmap = cmo.solar [[[attrs]]] standard_name = averaged_downward_ground_heat_flux; long_name = Ground heat flux (SW + LW - LE - H); units = W m-2
  (['g', 'h', 'f'], [(['n', 'a', 'm', 'e'], .str ['g', 'h', 'f']), (['c', 'm', 'a', 'p'], .str ['c', 'm', 'o', '.', 's', 'o', 'l', 'a', 'r'])],
    [(['s', 't', 'a', 'n', 'd', 'a', 'r', 'd', '_', 'n', 'a', 'm', 'e'], .str ['a', 'v', 'e', 'r', 'a', 'g', 'e', 'd', '_', 'd', 'o', 'w', 'n', 'w', 'a', 'r', 'd', '_', 'g', 'r', 'o', 'u', 'n', 'd', '_', 'h', 'e', 'a', 't', '_', 'f', 'l', 'u', 'x']), (['l', 'o', 'n', 'g', '_', 'n', 'a', 'm', 'e'], .str ['G', 'r', 'o', 'u', 'n', 'd', ' ', 'h', 'e', 'a', 't', ' ', 'f', 'l', 'u', 'x', ' ', '(', 'S', 'W', ' ', '+', ' ', 'L', 'W', ' ', '-', ' ', 'L', 'E', ' ', '-', ' ', 'H', ')']), (['u', 'n', 'i', 't', 's'], .str ['W', ' ', 'm', '-', '2'])]),
  -- [[lwuhf]] cmap = cmo.solar [[[attrs]]] standard_name = surface_upward_longwave_flux; long_name = Longwave radiation (positive when directed upward); units = W m-2
  (['l', 'w', 'u', 'h', 'f'], [(['c', 'm', 'a', 'p'], .str ['c', 'm', 'o', '.', 's', 'o', 'l', 'a', 'r'])],
    [(['s', 't', 'a', 'n', 'd', 'a', 'r', 'd', '_', 'n', 'a', 'm', 'e'], .str ['s', 'u', 'r', 'f', 'a', 'c', 'e', '_', 'u', 'p', 'w', 'a', 'r', 'd', '_', 'l', 'o', 'n', 'g', 'w', 'a', 'v', 'e', '_', 'f', 'l', 'u', 'x']), (['l', 'o', 'n', 'g', '_', 'n', 'a', 'm', 'e'], .str ['L', 'o', 'n', 'g', 'w', 'a', 'v', 'e', ' ', 'r', 'a', 'd', 'i', 'a', 't', 'i', 'o', 'n', ' ', '(', 'p', 'o', 's', 'i', 't', 'i', 'v', 'e', ' ', 'w', 'h', 'e', 'n', ' ', 'd', 'i', 'r', 'e', 'c', 't', 'e', 'd', ' ', 'u', 'p', 'w', 'a', 'r', 'd', ')']), (['u', 'n', 'i', 't', 's'], .str ['W', ' ', 'm', '-', '2'])]),
  -- [[swuhf]] cmap = cmo.solar [[[attrs]]] standard_name = surface_upward_shortwave_flux; long_name = Shortwave radiation (positive when directed upward); units = W m-2
  (['s', 'w', 'u', 'h', 'f'], [(['c', 'm', 'a', 'p'], .str ['c', 'm', 'o', '.', 's', 'o', 'l', 'a', 'r'])],
    [(['s', 't', 'a', 'n', 'd', 'a', 'r', 'd', '_', 'n', 'a', 'm', 'e'], .str ['s', 'u', 'r', 'f', 'a', 'c', 'e', '_', 'u', 'p', 'w', 'a', 'r', 'd', '_', 's', 'h', 'o', 'r', 't', 'w', 'a', 'v', 'e', '_', 'f', 'l', 'u', 'x']), (['l', 'o', 'n', 'g', '_', 'n', 'a', 'm', 'e'], .str ['S', 'h', 'o', 'r', 't', 'w', 'a', 'v', 'e', ' ', 'r', 'a', 'd', 'i', 'a', 't', 'i', 'o', 'n', ' ', '(', 'p', 'o', 's', 'i', 't', 'i', 'v', 'e', ' ', 'w', 'h', 'e', 'n', ' ', 'd', 'i', 'r', 'e', 'c', 't', 'e', 'd', ' ', 'u', 'p', 'w', 'a', 'r', 'd', ')']), (['u', 'n', 'i', 't', 's'], .str ['W', ' ', 'm', '-', '2'])]),
  -- [[lwdhf]] cmap = cmo.solar [[[attrs]]] standard_name = surface_downward_longwave_flux; long_name = Longwave radiation (positive when directed downward); units = W m-2
  (['l', 'w', 'd', 'h', 'f'], [(['c', 'm', 'a', 'p'], .str ['c', 'm', 'o', '.', 's', 'o', 'l', 'a', 'r'])],
    [(['s', 't', 'a', 'n', 'd', 'a', 'r', 'd', '_', 'n', 'a', 'm', 'e'], .str ['s', 'u', 'r', 'f', 'a', 'c', 'e', '_', 'd', 'o', 'w', 'n', 'w', 'a', 'r', 'd', '_', 'l', 'o', 'n', 'g', 'w', 'a', 'v', 'e', '_', 'f', 'l', 'u', 'x']), (['l', 'o', 'n', 'g', '_', 'n', 'a', 'm', 'e'], .str ['L', 'o', 'n', 'g', 'w', 'a', 'v', 'e', ' ', 'r', 'a', 'd', 'i', 'a', 't', 'i', 'o', 'n', ' ', '(', 'p', 'o', 's', 'i', 't', 'i', 'v', 'e', ' ', 'w', 'h', 'e', 'n', ' ', 'd', 'i', 'r', 'e', 'c', 't', 'e', 'd', ' ', 'd', 'o', 'w', 'n', 'w', 'a', 'r', 'd', ')']), (['u', 'n', 'i', 't', 's'], .str ['W', ' ', 'm', '-', '2'])]),
  -- [[swdhf]] cmap = cmo.solar [[[attrs]]] standard_name = surface_downward_shortwave_flux; long_name = Shortwave radiation (positive when directed downward); units = W m-2
  (['s', 'w', 'd', 'h', 'f'], [(['c', 'm', 'a', 'p'], .str ['c', 'm', 'o', '.', 's', 'o', 'l', 'a', 'r'])],
    [(['s', 't', 'a', 'n', 'd', 'a', 'r', 'd', '_', 'n', 'a', 'm', 'e'], .str ['s', 'u', 'r', 'f', 'a', 'c', 'e', '_', 'd', 'o', 'w', 'n', 'w', 'a', 'r', 'd', '_', 's', 'h', 'o', 'r', 't', 'w', 'a', 'v', 'e', '_', 'f', 'l', 'u', 'x']), (['l', 'o', 'n', 'g', '_', 'n', 'a', 'm', 'e'], .str ['S', 'h', 'o', 'r', 't', 'w', 'a', 'v', 'e', ' ', 'r', 'a', 'd', 'i', 'a', 't', 'i', 'o', 'n', ' ', '(', 'p', 'o', 's', 'i', 't', 'i', 'v', 'e', ' ', 'w', 'h', 'e', 'n', ' ', 'd', 'i', 'r', 'e', 'c', 't', 'e', 'd', ' ', 'd', 'o', 'w', 'n', 'w', 'a', 'r', 'd', ')']), (['u', 'n', 'i', 't', 's'], .str ['W', ' ', 'm', '-', '2'])]),
  -- [[lathf]] cmap = cmo.solar [[[attrs]]] standard_name = surface_downward_latent_heat_flux; long_name = Latent heat flux (positive when directed downward); units = W.m-2
  (['l', 'a', 't', 'h', 'f'], [(['c', 'm', 'a', 'p'], .str ['c', 'm', 'o', '.', 's', 'o', 'l', 'a', 'r'])],
    [(['s', 't', 'a', 'n', 'd', 'a', 'r', 'd', '_', 'n', 'a', 'm', 'e'], .str ['s', 'u', 'r', 'f', 'a', 'c', 'e', '_', 'd', 'o', 'w', 'n', 'w', 'a', 'r', 'd', '_', 'l', 'a', 't', 'e', 'n', 't', '_', 'h', 'e', 'a', 't', '_', 'f', 'l', 'u', 'x']), (['l', 'o', 'n', 'g', '_', 'n', 'a', 'm', 'e'], .str ['L', 'a', 't', 'e', 'n', 't', ' ', 'h', 'e', 'a', 't', ' ', 'f', 'l', 'u', 'x', ' ', '(', 'p', 'o', 's', 'i', 't', 'i', 'v', 'e', ' ', 'w', 'h', 'e', 'n', ' ', 'd', 'i', 'r', 'e', 'c', 't', 'e', 'd', ' ', 'd', 'o', 'w', 'n', 'w', 'a', 'r', 'd', ')']), (['u', 'n', 'i', 't', 's'], .str ['W', '.', 'm', '-', '2'])]),
  -- [[hflat]] cmap = cmo.solar [[[attrs]]] standard_name = surface_averaged_upward_latent_heat_flux,upward_latent_heat_flux,surface_upward_latent_heat_flux; long_name = Latent heat flux (positive when directed upward); units = W.m-2
  (['h', 'f', 'l', 'a', 't'], [(['c', 'm', 'a', 'p'], .str ['c', 'm', 'o', '.', 's', 'o', 'l', 'a', 'r'])],
    [(['s', 't', 'a', 'n', 'd', 'a', 'r', 'd', '_', 'n', 'a', 'm', 'e'], .list [['s', 'u', 'r', 'f', 'a', 'c', 'e', '_', 'a', 'v', 'e', 'r', 'a', 'g', 'e', 'd', '_', 'u', 'p', 'w', 'a', 'r', 'd', '_', 'l', 'a', 't', 'e', 'n', 't', '_', 'h', 'e', 'a', 't', '_', 'f', 'l', 'u', 'x'], ['u', 'p', 'w', 'a', 'r', 'd', '_', 'l', 'a', 't', 'e', 'n', 't', '_', 'h', 'e', 'a', 't', '_', 'f', 'l', 'u', 'x'], ['s', 'u', 'r', 'f', 'a', 'c', 'e', '_', 'u', 'p', 'w', 'a', 'r', 'd', '_', 'l', 'a', 't', 'e', 'n', 't', '_', 'h', 'e', 'a', 't', '_', 'f', 'l', 'u', 'x']]), (['l', 'o', 'n', 'g', '_', 'n', 'a', 'm', 'e'], .str ['L', 'a', 't', 'e', 'n', 't', ' ', 'h', 'e', 'a', 't', ' ', 'f', 'l', 'u', 'x', ' ', '(', 'p', 'o', 's', 'i', 't', 'i', 'v', 'e', ' ', 'w', 'h', 'e', 'n', ' ', 'd', 'i', 'r', 'e', 'c', 't', 'e', 'd', ' ', 'u', 'p', 'w', 'a', 'r', 'd', ')']), (['u', 'n', 'i', 't', 's'], .str ['W', '.', 'm', '-', '2'])]),
  -- [[senhf]] cmap = cmo.solar [[[attrs]]] standard_name = surface_downward_sensible_heat_flux; long_name = Sensible heat flux (positive when directed downward); units = W m-2
  (['s', 'e', 'n', 'h', 'f'], [(['c', 'm', 'a', 'p'], .str ['c', 'm', 'o', '.', 's', 'o', 'l', 'a', 'r'])],
    [(['s', 't', 'a', 'n', 'd', 'a', 'r', 'd', '_', 'n', 'a', 'm', 'e'], .str ['s', 'u', 'r', 'f', 'a', 'c', 'e', '_', 'd', 'o', 'w', 'n', 'w', 'a', 'r', 'd', '_', 's', 'e', 'n', 's', 'i', 'b', 'l', 'e', '_', 'h', 'e', 'a', 't', '_', 'f', 'l', 'u', 'x']), (['l', 'o', 'n', 'g', '_', 'n', 'a', 'm', 'e'], .str ['S', 'e', 'n', 's', 'i', 'b', 'l', 'e', ' ', 'h', 'e', 'a', 't', ' ', 'f', 'l', 'u', 'x', ' ', '(', 'p', 'o', 's', 'i', 't', 'i', 'v', 'e', ' ', 'w', 'h', 'e', 'n', ' ', 'd', 'i', 'r', 'e', 'c', 't', 'e', 'd', ' ', 'd', 'o', 'w', 'n', 'w', 'a', 'r', 'd', ')']), (['u', 'n', 'i', 't', 's'], .str ['W', ' ', 'm', '-', '2'])]),
  -- [[hfsen]] cmap = cmo.solar [[[attrs]]] standard_name = surface_averaged_upward_sensible_heat_flux,upward_sensible_heat_flux,surface_upward_sensible_heat_flux,; long_name = Sensible heat flux (positive when directed upward); units = W m-2
  (['h', 'f', 's', 'e', 'n'], [(['c', 'm', 'a', 'p'], .str ['c', 'm', 'o', '.', 's', 'o', 'l', 'a', 'r'])],
    [(['s', 't', 'a', 'n', 'd', 'a', 'r', 'd', '_', 'n', 'a', 'm', 'e'], .list [['s', 'u', 'r', 'f', 'a', 'c', 'e', '_', 'a', 'v', 'e', 'r', 'a', 'g', 'e', 'd', '_', 'u', 'p', 'w', 'a', 'r', 'd', '_', 's', 'e', 'n', 's', 'i', 'b', 'l', 'e', '_', 'h', 'e', 'a', 't', '_', 'f', 'l', 'u', 'x'], ['u', 'p', 'w', 'a', 'r', 'd', '_', 's', 'e', 'n', 's', 'i', 'b', 'l', 'e', '_', 'h', 'e', 'a', 't', '_', 'f', 'l', 'u', 'x'], ['s', 'u', 'r', 'f', 'a', 'c', 'e', '_', 'u', 'p', 'w', 'a', 'r', 'd', '_', 's', 'e', 'n', 's', 'i', 'b', 'l', 'e', '_', 'h', 'e', 'a', 't', '_', 'f', 'l', 'u', 'x']]), (['l', 'o', 'n', 'g', '_', 'n', 'a', 'm', 'e'], .str ['S', 'e', 'n', 's', 'i', 'b', 'l', 'e', ' ', 'h', 'e', 'a', 't', ' ', 'f', 'l', 'u', 'x', ' ', '(', 'p', 'o', 's', 'i', 't', 'i', 'v', 'e', ' ', 'w', 'h', 'e', 'n', ' ', 'd', 'i', 'r', 'e', 'c', 't', 'e', 'd', ' ', 'u', 'p', 'w', 'a', 'r', 'd', ')']), (['u', 'n', 'i', 't', 's'], .str ['W', ' ', 'm', '-', '2'])]),
  -- [[evap]] cmap = cmo.amp [[[attrs]]] standard_name = lwe_thickness_of_water_evaporation_amount; long_name = evaporation (positive when directed downward); units = m
  (['e', 'v', 'a', 'p'], [(['c', 'm', 'a', 'p'], .str ['c', 'm', 'o', '.', 'a', 'm', 'p'])],
    [(['s', 't', 'a', 'n', 'd', 'a', 'r', 'd', '_', 'n', 'a', 'm', 'e'], .str ['l', 'w', 'e', '_', 't', 'h', 'i', 'c', 'k', 'n', 'e', 's', 's', '_', 'o', 'f', '_', 'w', 'a', 't', 'e', 'r', '_', 'e', 'v', 'a', 'p', 'o', 'r', 'a', 't', 'i', 'o', 'n', '_', 'a', 'm', 'o', 'u', 'n', 't']), (['l', 'o', 'n', 'g', '_', 'n', 'a', 'm', 'e'], .str ['e', 'v', 'a', 'p', 'o', 'r', 'a', 't', 'i', 'o', 'n', ' ', '(', 'p', 'o', 's', 'i', 't', 'i', 'v', 'e', ' ', 'w', 'h', 'e', 'n', ' ', 'd', 'i', 'r', 'e', 'c', 't', 'e', 'd', ' ', 'd', 'o', 'w', 'n', 'w', 'a', 'r', 'd', ')']), (['u', 'n', 'i', 't', 's'], .str ['m'])]),
  -- [[rain]] cmap = cmo.rain [[[attrs]]] standard_name = lwe_thickness_of_precipitation_amount,lwe_thickness_of_downward_precipitation_amount; long_name = Precipitation [Downward (positive when it is raining)]; units = m,mm
  (['r', 'a', 'i', 'n'], [(['c', 'm', 'a', 'p'], .str ['c', 'm', 'o', '.', 'r', 'a', 'i', 'n'])],
    [(['s', 't', 'a', 'n', 'd', 'a', 'r', 'd', '_', 'n', 'a', 'm', 'e'], .list [['l', 'w', 'e', '_', 't', 'h', 'i', 'c', 'k', 'n', 'e', 's', 's', '_', 'o', 'f', '_', 'p', 'r', 'e', 'c', 'i', 'p', 'i', 't', 'a', 't', 'i', 'o', 'n', '_', 'a', 'm', 'o', 'u', 'n', 't'], ['l', 'w', 'e', '_', 't', 'h', 'i', 'c', 'k', 'n', 'e', 's', 's', '_', 'o', 'f', '_', 'd', 'o', 'w', 'n', 'w', 'a', 'r', 'd', '_', 'p', 'r', 'e', 'c', 'i', 'p', 'i', 't', 'a', 't', 'i', 'o', 'n', '_', 'a', 'm', 'o', 'u', 'n', 't']]), (['l', 'o', 'n', 'g', '_', 'n', 'a', 'm', 'e'], .str ['P', 'r', 'e', 'c', 'i', 'p', 'i', 't', 'a', 't', 'i', 'o', 'n', ' ', '[', 'D', 'o', 'w', 'n', 'w', 'a', 'r', 'd', ' ', '(', 'p', 'o', 's', 'i', 't', 'i', 'v', 'e', ' ', 'w', 'h', 'e', 'n', ' ', 'i', 't', ' ', 'i', 's', ' ', 'r', 'a', 'i', 'n', 'i', 'n', 'g', ')', ']']), (['u', 'n', 'i', 't', 's'], .list [['m'], ['m', 'm']])]),
  -- [[t2m]] cmap = cmo.thermal; standard_name = air_potential_temperature_at_2_meters; long_name = 2 m temperature; units = K,degrees_kelvin
  (['t', '2', 'm'], [(['c', 'm', 'a', 'p'], .str ['c', 'm', 'o', '.', 't', 'h', 'e', 'r', 'm', 'a', 'l']), (['s', 't', 'a', 'n', 'd', 'a', 'r', 'd', '_', 'n', 'a', 'm', 'e'], .str ['a', 'i', 'r', '_', 'p', 'o', 't', 'e', 'n', 't', 'i', 'a', 'l', '_', 't', 'e', 'm', 'p', 'e', 'r', 'a', 't', 'u', 'r', 'e', '_', 'a', 't', '_', '2', '_', 'm', 'e', 't', 'e', 'r', 's']), (['l', 'o', 'n', 'g', '_', 'n', 'a', 'm', 'e'], .str ['2', ' ', 'm', ' ', 't', 'e', 'm', 'p', 'e', 'r', 'a', 't', 'u', 'r', 'e']), (['u', 'n', 'i', 't', 's'], .list [['K'], ['d', 'e', 'g', 'r', 'e', 'e', 's', '_', 'k', 'e', 'l', 'v', 'i', 'n']])],
    []),
  -- [[q2m]] cmap = cmo.dense [[[attrs]]] standard_name = air_specific_humidity_at_2_meters; long_name = 2 m specific humidity; units = kg kg-1
  (['q', '2', 'm'], [(['c', 'm', 'a', 'p'], .str ['c', 'm', 'o', '.', 'd', 'e', 'n', 's', 'e'])],
    [(['s', 't', 'a', 'n', 'd', 'a', 'r', 'd', '_', 'n', 'a', 'm', 'e'], .str ['a', 'i', 'r', '_', 's', 'p', 'e', 'c', 'i', 'f', 'i', 'c', '_', 'h', 'u', 'm', 'i', 'd', 'i', 't', 'y', '_', 'a', 't', '_', '2', '_', 'm', 'e', 't', 'e', 'r', 's']), (['l', 'o', 'n', 'g', '_', 'n', 'a', 'm', 'e'], .str ['2', ' ', 'm', ' ', 's', 'p', 'e', 'c', 'i', 'f', 'i', 'c', ' ', 'h', 'u', 'm', 'i', 'd', 'i', 't', 'y']), (['u', 'n', 'i', 't', 's'], .str ['k', 'g', ' ', 'k', 'g', '-', '1'])]),
  -- [[hu2m]] name = q2m; cmap = cmo.dense [[[attrs]]] standard_name = air_relative_specific_humidity_at_2_meters; long_name = 2 m specific humidity; units = kg kg-1
  (['h', 'u', '2', 'm'], [(['n', 'a', 'm', 'e'], .str ['q', '2', 'm']), (['c', 'm', 'a', 'p'], .str ['c', 'm', 'o', '.', 'd', 'e', 'n', 's', 'e'])],
    [(['s', 't', 'a', 'n', 'd', 'a', 'r', 'd', '_', 'n', 'a', 'm', 'e'], .str ['a', 'i', 'r', '_', 'r', 'e', 'l', 'a', 't', 'i', 'v', 'e', '_', 's', 'p', 'e', 'c', 'i', 'f', 'i', 'c', '_', 'h', 'u', 'm', 'i', 'd', 'i', 't', 'y', '_', 'a', 't', '_', '2', '_', 'm', 'e', 't', 'e', 'r', 's']), (['l', 'o', 'n', 'g', '_', 'n', 'a', 'm', 'e'], .str ['2', ' ', 'm', ' ', 's', 'p', 'e', 'c', 'i', 'f', 'i', 'c', ' ', 'h', 'u', 'm', 'i', 'd', 'i', 't', 'y']), (['u', 'n', 'i', 't', 's'], .str ['k', 'g', ' ', 'k', 'g', '-', '1'])]),
  -- [[z0a]] name = z0 [[[attrs]]] standard_name = air_surface_roughness_length,surface_roughness_length,roughness_length; long_name = Air roughness length; units = m
  (['z', '0', 'a'], [(['n', 'a', 'm', 'e'], .str ['z', '0'])],
    [(['s', 't', 'a', 'n', 'd', 'a', 'r', 'd', '_', 'n', 'a', 'm', 'e'], .list [['a', 'i', 'r', '_', 's', 'u', 'r', 'f', 'a', 'c', 'e', '_', 'r', 'o', 'u', 'g', 'h', 'n', 'e', 's', 's', '_', 'l', 'e', 'n', 'g', 't', 'h'], ['s', 'u', 'r', 'f', 'a', 'c', 'e', '_', 'r', 'o', 'u', 'g', 'h', 'n', 'e', 's', 's', '_', 'l', 'e', 'n', 'g', 't', 'h'], ['r', 'o', 'u', 'g', 'h', 'n', 'e', 's', 's', '_', 'l', 'e', 'n', 'g', 't', 'h']]), (['l', 'o', 'n', 'g', '_', 'n', 'a', 'm', 'e'], .str ['A', 'i', 'r', ' ', 'r', 'o', 'u', 'g', 'h', 'n', 'e', 's', 's', ' ', 'l', 'e', 'n', 'g', 't', 'h']), (['u', 'n', 'i', 't', 's'], .str ['m'])]),
  -- [[cda]] name = cd [[[attrs]]] standard_name = averaged_drag_momentum_coefficient_in_air,drag_momentum_coefficient_in_air; long_name = Averaged drag momentum coefficient,Drag momentum coefficient; units = W s-2
  (['c', 'd', 'a'], [(['n', 'a', 'm', 'e'], .str ['c', 'd'])],
    [(['s', 't', 'a', 'n', 'd', 'a', 'r', 'd', '_', 'n', 'a', 'm', 'e'], .list [['a', 'v', 'e', 'r', 'a', 'g', 'e', 'd', '_', 'd', 'r', 'a', 'g', '_', 'm', 'o', 'm', 'e', 'n', 't', 'u', 'm', '_', 'c', 'o', 'e', 'f', 'f', 'i', 'c', 'i', 'e', 'n', 't', '_', 'i', 'n', '_', 'a', 'i', 'r'], ['d', 'r', 'a', 'g', '_', 'm', 'o', 'm', 'e', 'n', 't', 'u', 'm', '_', 'c', 'o', 'e', 'f', 'f', 'i', 'c', 'i', 'e', 'n', 't', '_', 'i', 'n', '_', 'a', 'i', 'r']]), (['l', 'o', 'n', 'g', '_', 'n', 'a', 'm', 'e'], .list [['A', 'v', 'e', 'r', 'a', 'g', 'e', 'd', ' ', 'd', 'r', 'a', 'g', ' ', 'm', 'o', 'm', 'e', 'n', 't', 'u', 'm', ' ', 'c', 'o', 'e', 'f', 'f', 'i', 'c', 'i', 'e', 'n', 't'], ['D', 'r', 'a', 'g', ' ', 'm', 'o', 'm', 'e', 'n', 't', 'u', 'm', ' ', 'c', 'o', 'e', 'f', 'f', 'i', 'c', 'i', 'e', 'n', 't']]), (['u', 'n', 'i', 't', 's'], .str ['W', ' ', 's', '-', '2'])]),
  -- [[cha]] name = ch [[[attrs]]] standard_name = averaged_drag_thermal_coefficient_in_air,drag_thermal_coefficient_in_air; long_name = Averaged drag thermal coefficient,Drag thermal coefficient; units = W s-2
  (['c', 'h', 'a'], [(['n', 'a', 'm', 'e'], .str ['c', 'h'])],
    [(['s', 't', 'a', 'n', 'd', 'a', 'r', 'd', '_', 'n', 'a', 'm', 'e'], .list [['a', 'v', 'e', 'r', 'a', 'g', 'e', 'd', '_', 'd', 'r', 'a', 'g', '_', 't', 'h', 'e', 'r', 'm', 'a', 'l', '_', 'c', 'o', 'e', 'f', 'f', 'i', 'c', 'i', 'e', 'n', 't', '_', 'i', 'n', '_', 'a', 'i', 'r'], ['d', 'r', 'a', 'g', '_', 't', 'h', 'e', 'r', 'm', 'a', 'l', '_', 'c', 'o', 'e', 'f', 'f', 'i', 'c', 'i', 'e', 'n', 't', '_', 'i', 'n', '_', 'a', 'i', 'r']]), (['l', 'o', 'n', 'g', '_', 'n', 'a', 'm', 'e'], .list [['A', 'v', 'e', 'r', 'a', 'g', 'e', 'd', ' ', 'd', 'r', 'a', 'g', ' ', 't', 'h', 'e', 'r', 'm', 'a', 'l', ' ', 'c', 'o', 'e', 'f', 'f', 'i', 'c', 'i', 'e', 'n', 't'], ['D', 'r', 'a', 'g', ' ', 't', 'h', 'e', 'r', 'm', 'a', 'l', ' ', 'c', 'o', 'e', 'f', 'f', 'i', 'c', 'i', 'e', 'n', 't']]), (['u', 'n', 'i', 't', 's'], .str ['W', ' ', 's', '-', '2'])]),
  -- [[cea]] name = ce [[[attrs]]] standard_name = averaged_latent_heat_coefficient_in_air,latent_heat_coefficient_in_air; long_name = Averaged latent heat flux coefficient,Latent heat flux coefficient; units = W s-2
  (['c', 'e', 'a'], [(['n', 'a', 'm', 'e'], .str ['c', 'e'])],
    [(['s', 't', 'a', 'n', 'd', 'a', 'r', 'd', '_', 'n', 'a', 'm', 'e'], .list [['a', 'v', 'e', 'r', 'a', 'g', 'e', 'd', '_', 'l', 'a', 't', 'e', 'n', 't', '_', 'h', 'e', 'a', 't', '_', 'c', 'o', 'e', 'f', 'f', 'i', 'c', 'i', 'e', 'n', 't', '_', 'i', 'n', '_', 'a', 'i', 'r'], ['l', 'a', 't', 'e', 'n', 't', '_', 'h', 'e', 'a', 't', '_', 'c', 'o', 'e', 'f', 'f', 'i', 'c', 'i', 'e', 'n', 't', '_', 'i', 'n', '_', 'a', 'i', 'r']]), (['l', 'o', 'n', 'g', '_', 'n', 'a', 'm', 'e'], .list [['A', 'v', 'e', 'r', 'a', 'g', 'e', 'd', ' ', 'l', 'a', 't', 'e', 'n', 't', ' ', 'h', 'e', 'a', 't', ' ', 'f', 'l', 'u', 'x', ' ', 'c', 'o', 'e', 'f', 'f', 'i', 'c', 'i', 'e', 'n', 't'], ['L', 'a', 't', 'e', 'n', 't', ' ', 'h', 'e', 'a', 't', ' ', 'f', 'l', 'u', 'x', ' ', 'c', 'o', 'e', 'f', 'f', 'i', 'c', 'i', 'e', 'n', 't']]), (['u', 'n', 'i', 't', 's'], .str ['W', ' ', 's', '-', '2'])]),
  -- [[wspd]] cmap = cmo.speed [[[attrs]]] standard_name = wind_speed; long_name = Wind speed; units = m s-1
  (['w', 's', 'p', 'd'], [(['c', 'm', 'a', 'p'], .str ['c', 'm', 'o', '.', 's', 'p', 'e', 'e', 'd'])],
    [(['s', 't', 'a', 'n', 'd', 'a', 'r', 'd', '_', 'n', 'a', 'm', 'e'], .str ['w', 'i', 'n', 'd', '_', 's', 'p', 'e', 'e', 'd']), (['l', 'o', 'n', 'g', '_', 'n', 'a', 'm', 'e'], .str ['W', 'i', 'n', 'd', ' ', 's', 'p', 'e', 'e', 'd']), (['u', 'n', 'i', 't', 's'], .str ['m', ' ', 's', '-', '1'])]),
  -- [[wdir]] cmap = cmo.phase:cyc360 [[[attrs]]] standard_name = wind_to_direction,wind_from_direction; long_name = Wind direction; units = degrees
  (['w', 'd', 'i', 'r'], [(['c', 'm', 'a', 'p'], .str ['c', 'm', 'o', '.', 'p', 'h', 'a', 's', 'e', ':', 'c', 'y', 'c', '3', '6', '0'])],
    [(['s', 't', 'a', 'n', 'd', 'a', 'r', 'd', '_', 'n', 'a', 'm', 'e'], .list [['w', 'i', 'n', 'd', '_', 't', 'o', '_', 'd', 'i', 'r', 'e', 'c', 't', 'i', 'o', 'n'], ['w', 'i', 'n', 'd', '_', 'f', 'r', 'o', 'm', '_', 'd', 'i', 'r', 'e', 'c', 't', 'i', 'o', 'n']]), (['l', 'o', 'n', 'g', '_', 'n', 'a', 'm', 'e'], .str ['W', 'i', 'n', 'd', ' ', 'd', 'i', 'r', 'e', 'c', 't', 'i', 'o', 'n']), (['u', 'n', 'i', 't', 's'], .str ['d', 'e', 'g', 'r', 'e', 'e', 's'])]),
  -- [[wfdir]]  [[[attrs]]] standard_name = wind_from_direction; long_name = Wind from direction; units = degrees; cmap = cmo.phase:cyc360
  (['w', 'f', 'd', 'i', 'r'], [],
    [(['s', 't', 'a', 'n', 'd', 'a', 'r', 'd', '_', 'n', 'a', 'm', 'e'], .str ['w', 'i', 'n', 'd', '_', 'f', 'r', 'o', 'm', '_', 'd', 'i', 'r', 'e', 'c', 't', 'i', 'o', 'n']), (['l', 'o', 'n', 'g', '_', 'n', 'a', 'm', 'e'], .str ['W', 'i', 'n', 'd', ' ', 'f', 'r', 'o', 'm', ' ', 'd', 'i', 'r', 'e', 'c', 't', 'i', 'o', 'n']), (['u', 'n', 'i', 't', 's'], .str ['d', 'e', 'g', 'r', 'e', 'e', 's']), (['c', 'm', 'a', 'p'], .str ['c', 'm', 'o', '.', 'p', 'h', 'a', 's', 'e', ':', 'c', 'y', 'c', '3', '6', '0'])]),
  -- [[wtdir]] cmap = cmo.phase:cyc360 [[[attrs]]] standard_name = wind_to_direction; long_name = Wind to direction; units = degrees
  (['w', 't', 'd', 'i', 'r'], [(['c', 'm', 'a', 'p'], .str ['c', 'm', 'o', '.', 'p', 'h', 'a', 's', 'e', ':', 'c', 'y', 'c', '3', '6', '0'])],
    [(['s', 't', 'a', 'n', 'd', 'a', 'r', 'd', '_', 'n', 'a', 'm', 'e'], .str ['w', 'i', 'n', 'd', '_', 't', 'o', '_', 'd', 'i', 'r', 'e', 'c', 't', 'i', 'o', 'n']), (['l', 'o', 'n', 'g', '_', 'n', 'a', 'm', 'e'], .str ['W', 'i', 'n', 'd', ' ', 't', 'o', ' ', 'd', 'i', 'r', 'e', 'c', 't', 'i', 'o', 'n']), (['u', 'n', 'i', 't', 's'], .str ['d', 'e', 'g', 'r', 'e', 'e', 's'])]),
  -- [[uair]] name = uair,ua,uwnd; cmap = cmo.delta:piv0 [[[attrs]]] standard_name = eastward_wind,x_wind; long_name = Zonal wind speed (westerly); units = m s-1
  (['u', 'a', 'i', 'r'], [(['n', 'a', 'm', 'e'], .list [['u', 'a', 'i', 'r'], ['u', 'a'], ['u', 'w', 'n', 'd']]), (['c', 'm', 'a', 'p'], .str ['c', 'm', 'o', '.', 'd', 'e', 'l', 't', 'a', ':', 'p', 'i', 'v', '0'])],
    [(['s', 't', 'a', 'n', 'd', 'a', 'r', 'd', '_', 'n', 'a', 'm', 'e'], .list [['e', 'a', 's', 't', 'w', 'a', 'r', 'd', '_', 'w', 'i', 'n', 'd'], ['x', '_', 'w', 'i', 'n', 'd']]), (['l', 'o', 'n', 'g', '_', 'n', 'a', 'm', 'e'], .str ['Z', 'o', 'n', 'a', 'l', ' ', 'w', 'i', 'n', 'd', ' ', 's', 'p', 'e', 'e', 'd', ' ', '(', 'w', 'e', 's', 't', 'e', 'r', 'l', 'y', ')']), (['u', 'n', 'i', 't', 's'], .str ['m', ' ', 's', '-', '1'])]),
  -- [[vair]] name = vair,va,vwnd; cmap = cmo.delta:piv0 [[[attrs]]] standard_name = northward_wind,y_wind; long_name = Meridional wind speed (northerly); units = m s-1
  (['v', 'a', 'i', 'r'], [(['n', 'a', 'm', 'e'], .list [['v', 'a', 'i', 'r'], ['v', 'a'], ['v', 'w', 'n', 'd']]), (['c', 'm', 'a', 'p'], .str ['c', 'm', 'o', '.', 'd', 'e', 'l', 't', 'a', ':', 'p', 'i', 'v', '0'])],
    [(['s', 't', 'a', 'n', 'd', 'a', 'r', 'd', '_', 'n', 'a', 'm', 'e'], .list [['n', 'o', 'r', 't', 'h', 'w', 'a', 'r', 'd', '_', 'w', 'i', 'n', 'd'], ['y', '_', 'w', 'i', 'n', 'd']]), (['l', 'o', 'n', 'g', '_', 'n', 'a', 'm', 'e'], .str ['M', 'e', 'r', 'i', 'd', 'i', 'o', 'n', 'a', 'l', ' ', 'w', 'i', 'n', 'd', ' ', 's', 'p', 'e', 'e', 'd', ' ', '(', 'n', 'o', 'r', 't', 'h', 'e', 'r', 'l', 'y', ')']), (['u', 'n', 'i', 't', 's'], .str ['m', ' ', 's', '-', '1'])]),
  -- [[wair]] name = wa,wwnd; cmap = cmo.curl:piv0 [[[attrs]]] standard_name = upward_wind,z_wind; long_name = Upward wind speed; units = m s-1
  (['w', 'a', 'i', 'r'], [(['n', 'a', 'm', 'e'], .list [['w', 'a'], ['w', 'w', 'n', 'd']]), (['c', 'm', 'a', 'p'], .str ['c', 'm', 'o', '.', 'c', 'u', 'r', 'l', ':', 'p', 'i', 'v', '0'])],
    [(['s', 't', 'a', 'n', 'd', 'a', 'r', 'd', '_', 'n', 'a', 'm', 'e'], .list [['u', 'p', 'w', 'a', 'r', 'd', '_', 'w', 'i', 'n', 'd'], ['z', '_', 'w', 'i', 'n', 'd']]), (['l', 'o', 'n', 'g', '_', 'n', 'a', 'm', 'e'], .str ['U', 'p', 'w', 'a', 'r', 'd', ' ', 'w', 'i', 'n', 'd', ' ', 's', 'p', 'e', 'e', 'd']), (['u', 'n', 'i', 't', 's'], .str ['m', ' ', 's', '-', '1'])]),
  -- [[tair]] name = temp,tht; cmap = cmo.thermal [[[attrs]]] standard_name = air_potential_temperature,air_temperature; long_name = Temperature; units = degrees_kelvin,K
  (['t', 'a', 'i', 'r'], [(['n', 'a', 'm', 'e'], .list [['t', 'e', 'm', 'p'], ['t', 'h', 't']]), (['c', 'm', 'a', 'p'], .str ['c', 'm', 'o', '.', 't', 'h', 'e', 'r', 'm', 'a', 'l'])],
    [(['s', 't', 'a', 'n', 'd', 'a', 'r', 'd', '_', 'n', 'a', 'm', 'e'], .list [['a', 'i', 'r', '_', 'p', 'o', 't', 'e', 'n', 't', 'i', 'a', 'l', '_', 't', 'e', 'm', 'p', 'e', 'r', 'a', 't', 'u', 'r', 'e'], ['a', 'i', 'r', '_', 't', 'e', 'm', 'p', 'e', 'r', 'a', 't', 'u', 'r', 'e']]), (['l', 'o', 'n', 'g', '_', 'n', 'a', 'm', 'e'], .str ['T', 'e', 'm', 'p', 'e', 'r', 'a', 't', 'u', 'r', 'e']), (['u', 'n', 'i', 't', 's'], .list [['d', 'e', 'g', 'r', 'e', 'e', 's', '_', 'k', 'e', 'l', 'v', 'i', 'n'], ['K']])]),
  -- [[pa]] name = psl [[[attrs]]] standard_name = air_pressure_at_sea_level,air_pressure_at_mean_sea_level; long_name = Absolute pressure; units = Pa
  (['p', 'a'], [(['n', 'a', 'm', 'e'], .str ['p', 's', 'l'])],
    [(['s', 't', 'a', 'n', 'd', 'a', 'r', 'd', '_', 'n', 'a', 'm', 'e'], .list [['a', 'i', 'r', '_', 'p', 'r', 'e', 's', 's', 'u', 'r', 'e', '_', 'a', 't', '_', 's', 'e', 'a', '_', 'l', 'e', 'v', 'e', 'l'], ['a', 'i', 'r', '_', 'p', 'r', 'e', 's', 's', 'u', 'r', 'e', '_', 'a', 't', '_', 'm', 'e', 'a', 'n', '_', 's', 'e', 'a', '_', 'l', 'e', 'v', 'e', 'l']]), (['l', 'o', 'n', 'g', '_', 'n', 'a', 'm', 'e'], .str ['A', 'b', 's', 'o', 'l', 'u', 't', 'e', ' ', 'p', 'r', 'e', 's', 's', 'u', 'r', 'e']), (['u', 'n', 'i', 't', 's'], .str ['P', 'a'])]),
  -- [[ps]]  [[[attrs]]] standard_name = surface_air_pressure; long_name = Surface air pressure; units = Pa
  (['p', 's'], [],
    [(['s', 't', 'a', 'n', 'd', 'a', 'r', 'd', '_', 'n', 'a', 'm', 'e'], .str ['s', 'u', 'r', 'f', 'a', 'c', 'e', '_', 'a', 'i', 'r', '_', 'p', 'r', 'e', 's', 's', 'u', 'r', 'e']), (['l', 'o', 'n', 'g', '_', 'n', 'a', 'm', 'e'], .str ['S', 'u', 'r', 'f', 'a', 'c', 'e', ' ', 'a', 'i', 'r', ' ', 'p', 'r', 'e', 's', 's', 'u', 'r', 'e']), (['u', 'n', 'i', 't', 's'], .str ['P', 'a'])]),
  -- [[plev]]  [[[attrs]]] standard_name = air_pressure; long_name = Air pressure; units = Pa
  (['p', 'l', 'e', 'v'], [],
    [(['s', 't', 'a', 'n', 'd', 'a', 'r', 'd', '_', 'n', 'a', 'm', 'e'], .str ['a', 'i', 'r', '_', 'p', 'r', 'e', 's', 's', 'u', 'r', 'e']), (['l', 'o', 'n', 'g', '_', 'n', 'a', 'm', 'e'], .str ['A', 'i', 'r', ' ', 'p', 'r', 'e', 's', 's', 'u', 'r', 'e']), (['u', 'n', 'i', 't', 's'], .str ['P', 'a'])]),
  -- [[ptop]]  [[[attrs]]] standard_name = air_pressure_at_top_of_atmosphere_model; long_name = Air pressure at top of model; units = Pa
  (['p', 't', 'o', 'p'], [],
    [(['s', 't', 'a', 'n', 'd', 'a', 'r', 'd', '_', 'n', 'a', 'm', 'e'], .str ['a', 'i', 'r', '_', 'p', 'r', 'e', 's', 's', 'u', 'r', 'e', '_', 'a', 't', '_', 't', 'o', 'p', '_', 'o', 'f', '_', 'a', 't', 'm', 'o', 's', 'p', 'h', 'e', 'r', 'e', '_', 'm', 'o', 'd', 'e', 'l']), (['l', 'o', 'n', 'g', '_', 'n', 'a', 'm', 'e'], .str ['A', 'i', 'r', ' ', 'p', 'r', 'e', 's', 's', 'u', 'r', 'e', ' ', 'a', 't', ' ', 't', 'o', 'p', ' ', 'o', 'f', ' ', 'm', 'o', 'd', 'e', 'l']), (['u', 'n', 'i', 't', 's'], .str ['P', 'a'])]),
  -- [[tkea]] cmap = cmo.amp [[[attrs]]] standard_name = air_turbulent_kinetic_energy; long_name = Turbulent Kinetic Energy; units = m2 s-2
  (['t', 'k', 'e', 'a'], [(['c', 'm', 'a', 'p'], .str ['c', 'm', 'o', '.', 'a', 'm', 'p'])],
    [(['s', 't', 'a', 'n', 'd', 'a', 'r', 'd', '_', 'n', 'a', 'm', 'e'], .str ['a', 'i', 'r', '_', 't', 'u', 'r', 'b', 'u', 'l', 'e', 'n', 't', '_', 'k', 'i', 'n', 'e', 't', 'i', 'c', '_', 'e', 'n', 'e', 'r', 'g', 'y']), (['l', 'o', 'n', 'g', '_', 'n', 'a', 'm', 'e'], .str ['T', 'u', 'r', 'b', 'u', 'l', 'e', 'n', 't', ' ', 'K', 'i', 'n', 'e', 't', 'i', 'c', ' ', 'E', 'n', 'e', 'r', 'g', 'y']), (['u', 'n', 'i', 't', 's'], .str ['m', '2', ' ', 's', '-', '2'])]),
  -- [[u10m]]  [[[attrs]]] standard_name = x_wind_at_10m,x_wind,x_wind_at_u_location,x_wind_at_10m_at_u_location,eastward_wind; long_name = 10-m zonal wind speed (westerly); units = m s-1; cmap = cmo.delta:piv0
  (['u', '1', '0', 'm'], [],
    [(['s', 't', 'a', 'n', 'd', 'a', 'r', 'd', '_', 'n', 'a', 'm', 'e'], .list [['x', '_', 'w', 'i', 'n', 'd', '_', 'a', 't', '_', '1', '0', 'm'], ['x', '_', 'w', 'i', 'n', 'd'], ['x', '_', 'w', 'i', 'n', 'd', '_', 'a', 't', '_', 'u', '_', 'l', 'o', 'c', 'a', 't', 'i', 'o', 'n'], ['x', '_', 'w', 'i', 'n', 'd', '_', 'a', 't', '_', '1', '0', 'm', '_', 'a', 't', '_', 'u', '_', 'l', 'o', 'c', 'a', 't', 'i', 'o', 'n'], ['e', 'a', 's', 't', 'w', 'a', 'r', 'd', '_', 'w', 'i', 'n', 'd']]), (['l', 'o', 'n', 'g', '_', 'n', 'a', 'm', 'e'], .str ['1', '0', '-', 'm', ' ', 'z', 'o', 'n', 'a', 'l', ' ', 'w', 'i', 'n', 'd', ' ', 's', 'p', 'e', 'e', 'd', ' ', '(', 'w', 'e', 's', 't', 'e', 'r', 'l', 'y', ')']), (['u', 'n', 'i', 't', 's'], .str ['m', ' ', 's', '-', '1']), (['c', 'm', 'a', 'p'], .str ['c', 'm', 'o', '.', 'd', 'e', 'l', 't', 'a', ':', 'p', 'i', 'v', '0'])]),
  -- [[v10m]]  [[[attrs]]] standard_name = y_wind_at_10m,y_wind,y_wind_at_v_location,y_wind_at_10m_at_v_location,northward_wind; long_name = 10-m meridional wind speed (northerly); units = m s-1; cmap = cmo.delta:piv0
  (['v', '1', '0', 'm'], [],
    [(['s', 't', 'a', 'n', 'd', 'a', 'r', 'd', '_', 'n', 'a', 'm', 'e'], .list [['y', '_', 'w', 'i', 'n', 'd', '_', 'a', 't', '_', '1', '0', 'm'], ['y', '_', 'w', 'i', 'n', 'd'], ['y', '_', 'w', 'i', 'n', 'd', '_', 'a', 't', '_', 'v', '_', 'l', 'o', 'c', 'a', 't', 'i', 'o', 'n'], ['y', '_', 'w', 'i', 'n', 'd', '_', 'a', 't', '_', '1', '0', 'm', '_', 'a', 't', '_', 'v', '_', 'l', 'o', 'c', 'a', 't', 'i', 'o', 'n'], ['n', 'o', 'r', 't', 'h', 'w', 'a', 'r', 'd', '_', 'w', 'i', 'n', 'd']]), (['l', 'o', 'n', 'g', '_', 'n', 'a', 'm', 'e'], .str ['1', '0', '-', 'm', ' ', 'm', 'e', 'r', 'i', 'd', 'i', 'o', 'n', 'a', 'l', ' ', 'w', 'i', 'n', 'd', ' ', 's', 'p', 'e', 'e', 'd', ' ', '(', 'n', 'o', 'r', 't', 'h', 'e', 'r', 'l', 'y', ')']), (['u', 'n', 'i', 't', 's'], .str ['m', ' ', 's', '-', '1']), (['c', 'm', 'a', 'p'], .str ['c', 'm', 'o', '.', 'd', 'e', 'l', 't', 'a', ':', 'p', 'i', 'v', '0'])]),
  -- [[w10m]] cmap = cmo.curl:piv0 [[[attrs]]] standard_name = z_wind_at_10m,upward_wind_at_10m; long_name = 10-m meridional wind speed (northerly); units = m s-1
  (['w', '1', '0', 'm'], [(['c', 'm', 'a', 'p'], .str ['c', 'm', 'o', '.', 'c', 'u', 'r', 'l', ':', 'p', 'i', 'v', '0'])],
    [(['s', 't', 'a', 'n', 'd', 'a', 'r', 'd', '_', 'n', 'a', 'm', 'e'], .list [['z', '_', 'w', 'i', 'n', 'd', '_', 'a', 't', '_', '1', '0', 'm'], ['u', 'p', 'w', 'a', 'r', 'd', '_', 'w', 'i', 'n', 'd', '_', 'a', 't', '_', '1', '0', 'm']]), (['l', 'o', 'n', 'g', '_', 'n', 'a', 'm', 'e'], .str ['1', '0', '-', 'm', ' ', 'm', 'e', 'r', 'i', 'd', 'i', 'o', 'n', 'a', 'l', ' ', 'w', 'i', 'n', 'd', ' ', 's', 'p', 'e', 'e', 'd', ' ', '(', 'n', 'o', 'r', 't', 'h', 'e', 'r', 'l', 'y', ')']), (['u', 'n', 'i', 't', 's'], .str ['m', ' ', 's', '-', '1'])]),
  -- [[ux10m]] cmap = cmo.delta:piv0 [[[attrs]]] standard_name = x_wind_at_10m,x_wind,grid_eastward_wind,x_wind_at_u_location,x_wind_at_10m_at_u_location; long_name = 10-m wind speed along X; units = m s-1
  (['u', 'x', '1', '0', 'm'], [(['c', 'm', 'a', 'p'], .str ['c', 'm', 'o', '.', 'd', 'e', 'l', 't', 'a', ':', 'p', 'i', 'v', '0'])],
    [(['s', 't', 'a', 'n', 'd', 'a', 'r', 'd', '_', 'n', 'a', 'm', 'e'], .list [['x', '_', 'w', 'i', 'n', 'd', '_', 'a', 't', '_', '1', '0', 'm'], ['x', '_', 'w', 'i', 'n', 'd'], ['g', 'r', 'i', 'd', '_', 'e', 'a', 's', 't', 'w', 'a', 'r', 'd', '_', 'w', 'i', 'n', 'd'], ['x', '_', 'w', 'i', 'n', 'd', '_', 'a', 't', '_', 'u', '_', 'l', 'o', 'c', 'a', 't', 'i', 'o', 'n'], ['x', '_', 'w', 'i', 'n', 'd', '_', 'a', 't', '_', '1', '0', 'm', '_', 'a', 't', '_', 'u', '_', 'l', 'o', 'c', 'a', 't', 'i', 'o', 'n']]), (['l', 'o', 'n', 'g', '_', 'n', 'a', 'm', 'e'], .str ['1', '0', '-', 'm', ' ', 'w', 'i', 'n', 'd', ' ', 's', 'p', 'e', 'e', 'd', ' ', 'a', 'l', 'o', 'n', 'g', ' ', 'X']), (['u', 'n', 'i', 't', 's'], .str ['m', ' ', 's', '-', '1'])]),
  -- [[vy10m]] cmap = cmo.delta:piv0 [[[attrs]]] standard_name = y_wind_at_10m,y_wind,grid_northward_wind,y_wind_at_v_location,y_wind_at_10m_at_v_location; long_name = 10-m wind speed along Y; units = m s-1
  (['v', 'y', '1', '0', 'm'], [(['c', 'm', 'a', 'p'], .str ['c', 'm', 'o', '.', 'd', 'e', 'l', 't', 'a', ':', 'p', 'i', 'v', '0'])],
    [(['s', 't', 'a', 'n', 'd', 'a', 'r', 'd', '_', 'n', 'a', 'm', 'e'], .list [['y', '_', 'w', 'i', 'n', 'd', '_', 'a', 't', '_', '1', '0', 'm'], ['y', '_', 'w', 'i', 'n', 'd'], ['g', 'r', 'i', 'd', '_', 'n', 'o', 'r', 't', 'h', 'w', 'a', 'r', 'd', '_', 'w', 'i', 'n', 'd'], ['y', '_', 'w', 'i', 'n', 'd', '_', 'a', 't', '_', 'v', '_', 'l', 'o', 'c', 'a', 't', 'i', 'o', 'n'], ['y', '_', 'w', 'i', 'n', 'd', '_', 'a', 't', '_', '1', '0', 'm', '_', 'a', 't', '_', 'v', '_', 'l', 'o', 'c', 'a', 't', 'i', 'o', 'n']]), (['l', 'o', 'n', 'g', '_', 'n', 'a', 'm', 'e'], .str ['1', '0', '-', 'm', ' ', 'w', 'i', 'n', 'd', ' ', 's', 'p', 'e', 'e', 'd', ' ', 'a', 'l', 'o', 'n', 'g', ' ', 'Y']), (['u', 'n', 'i', 't', 's'], .str ['m', ' ', 's', '-', '1'])]),
  -- [[tauu]]  [[[attrs]]] standard_name = surface_downward_eastward_stress,surface_eastward_stress,surface_downward_x_stress; long_name = Surface eastward wind stress; units = N m-2,Pa; cmap = cmo.diff:piv0
  (['t', 'a', 'u', 'u'], [],
    [(['s', 't', 'a', 'n', 'd', 'a', 'r', 'd', '_', 'n', 'a', 'm', 'e'], .list [['s', 'u', 'r', 'f', 'a', 'c', 'e', '_', 'd', 'o', 'w', 'n', 'w', 'a', 'r', 'd', '_', 'e', 'a', 's', 't', 'w', 'a', 'r', 'd', '_', 's', 't', 'r', 'e', 's', 's'], ['s', 'u', 'r', 'f', 'a', 'c', 'e', '_', 'e', 'a', 's', 't', 'w', 'a', 'r', 'd', '_', 's', 't', 'r', 'e', 's', 's'], ['s', 'u', 'r', 'f', 'a', 'c', 'e', '_', 'd', 'o', 'w', 'n', 'w', 'a', 'r', 'd', '_', 'x', '_', 's', 't', 'r', 'e', 's', 's']]), (['l', 'o', 'n', 'g', '_', 'n', 'a', 'm', 'e'], .str ['S', 'u', 'r', 'f', 'a', 'c', 'e', ' ', 'e', 'a', 's', 't', 'w', 'a', 'r', 'd', ' ', 'w', 'i', 'n', 'd', ' ', 's', 't', 'r', 'e', 's', 's']), (['u', 'n', 'i', 't', 's'], .list [['N', ' ', 'm', '-', '2'], ['P', 'a']]), (['c', 'm', 'a', 'p'], .str ['c', 'm', 'o', '.', 'd', 'i', 'f', 'f', ':', 'p', 'i', 'v', '0'])]),
  -- [[tauv]] cmap = cmo.diff:piv0 [[[attrs]]] standard_name = surface_downward_northward_stress,surface_northward_stress,surface_downward_y_stress; long_name = Surface northward wind stress; units = N m-2,Pa
  (['t', 'a', 'u', 'v'], [(['c', 'm', 'a', 'p'], .str ['c', 'm', 'o', '.', 'd', 'i', 'f', 'f', ':', 'p', 'i', 'v', '0'])],
    [(['s', 't', 'a', 'n', 'd', 'a', 'r', 'd', '_', 'n', 'a', 'm', 'e'], .list [['s', 'u', 'r', 'f', 'a', 'c', 'e', '_', 'd', 'o', 'w', 'n', 'w', 'a', 'r', 'd', '_', 'n', 'o', 'r', 't', 'h', 'w', 'a', 'r', 'd', '_', 's', 't', 'r', 'e', 's', 's'], ['s', 'u', 'r', 'f', 'a', 'c', 'e', '_', 'n', 'o', 'r', 't', 'h', 'w', 'a', 'r', 'd', '_', 's', 't', 'r', 'e', 's', 's'], ['s', 'u', 'r', 'f', 'a', 'c', 'e', '_', 'd', 'o', 'w', 'n', 'w', 'a', 'r', 'd', '_', 'y', '_', 's', 't', 'r', 'e', 's', 's']]), (['l', 'o', 'n', 'g', '_', 'n', 'a', 'm', 'e'], .str ['S', 'u', 'r', 'f', 'a', 'c', 'e', ' ', 'n', 'o', 'r', 't', 'h', 'w', 'a', 'r', 'd', ' ', 'w', 'i', 'n', 'd', ' ', 's', 't', 'r', 'e', 's', 's']), (['u', 'n', 'i', 't', 's'], .list [['N', ' ', 'm', '-', '2'], ['P', 'a']])]),
  -- [[taux]] name = ustress; cmap = cmo.diff:piv0 [[[attrs]]] standard_name = surface_downward_x_stress,surface_x_stress,surface_downward_x_stress_at_u_location; long_name = Surface wind stress along X; units = N m-2
  (['t', 'a', 'u', 'x'], [(['n', 'a', 'm', 'e'], .str ['u', 's', 't', 'r', 'e', 's', 's']), (['c', 'm', 'a', 'p'], .str ['c', 'm', 'o', '.', 'd', 'i', 'f', 'f', ':', 'p', 'i', 'v', '0'])],
    [(['s', 't', 'a', 'n', 'd', 'a', 'r', 'd', '_', 'n', 'a', 'm', 'e'], .list [['s', 'u', 'r', 'f', 'a', 'c', 'e', '_', 'd', 'o', 'w', 'n', 'w', 'a', 'r', 'd', '_', 'x', '_', 's', 't', 'r', 'e', 's', 's'], ['s', 'u', 'r', 'f', 'a', 'c', 'e', '_', 'x', '_', 's', 't', 'r', 'e', 's', 's'], ['s', 'u', 'r', 'f', 'a', 'c', 'e', '_', 'd', 'o', 'w', 'n', 'w', 'a', 'r', 'd', '_', 'x', '_', 's', 't', 'r', 'e', 's', 's', '_', 'a', 't', '_', 'u', '_', 'l', 'o', 'c', 'a', 't', 'i', 'o', 'n']]), (['l', 'o', 'n', 'g', '_', 'n', 'a', 'm', 'e'], .str ['S', 'u', 'r', 'f', 'a', 'c', 'e', ' ', 'w', 'i', 'n', 'd', ' ', 's', 't', 'r', 'e', 's', 's', ' ', 'a', 'l', 'o', 'n', 'g', ' ', 'X']), (['u', 'n', 'i', 't', 's'], .str ['N', ' ', 'm', '-', '2'])]),
  -- [[tauy]] name = vstress; cmap = cmo.diff:piv0 [[[attrs]]] standard_name = surface_downward_y_stress,surface_y_stress,surface_downward_y_stress_at_v_location; long_name = Surface wind stress along Y; units = N m-2
  (['t', 'a', 'u', 'y'], [(['n', 'a', 'm', 'e'], .str ['v', 's', 't', 'r', 'e', 's', 's']), (['c', 'm', 'a', 'p'], .str ['c', 'm', 'o', '.', 'd', 'i', 'f', 'f', ':', 'p', 'i', 'v', '0'])],
    [(['s', 't', 'a', 'n', 'd', 'a', 'r', 'd', '_', 'n', 'a', 'm', 'e'], .list [['s', 'u', 'r', 'f', 'a', 'c', 'e', '_', 'd', 'o', 'w', 'n', 'w', 'a', 'r', 'd', '_', 'y', '_', 's', 't', 'r', 'e', 's', 's'], ['s', 'u', 'r', 'f', 'a', 'c', 'e', '_', 'y', '_', 's', 't', 'r', 'e', 's', 's'], ['s', 'u', 'r', 'f', 'a', 'c', 'e', '_', 'd', 'o', 'w', 'n', 'w', 'a', 'r', 'd', '_', 'y', '_', 's', 't', 'r', 'e', 's', 's', '_', 'a', 't', '_', 'v', '_', 'l', 'o', 'c', 'a', 't', 'i', 'o', 'n']]), (['l', 'o', 'n', 'g', '_', 'n', 'a', 'm', 'e'], .str ['S', 'u', 'r', 'f', 'a', 'c', 'e', ' ', 'w', 'i', 'n', 'd', ' ', 's', 't', 'r', 'e', 's', 's', ' ', 'a', 'l', 'o', 'n', 'g', ' ', 'Y']), (['u', 'n', 'i', 't', 's'], .str ['N', ' ', 'm', '-', '2'])]),
  -- [[topheight]]  [[[attrs]]] standard_name = maximum_height,height_above_geopotential_datum_at_top_of_atmosphere_model; long_name = height of the top level; units = m
  (['t', 'o', 'p', 'h', 'e', 'i', 'g', 'h', 't'], [],
    [(['s', 't', 'a', 'n', 'd', 'a', 'r', 'd', '_', 'n', 'a', 'm', 'e'], .list [['m', 'a', 'x', 'i', 'm', 'u', 'm', '_', 'h', 'e', 'i', 'g', 'h', 't'], ['h', 'e', 'i', 'g', 'h', 't', '_', 'a', 'b', 'o', 'v', 'e', '_', 'g', 'e', 'o', 'p', 'o', 't', 'e', 'n', 't', 'i', 'a', 'l', '_', 'd', 'a', 't', 'u', 'm', '_', 'a', 't', '_', 't', 'o', 'p', '_', 'o', 'f', '_', 'a', 't', 'm', 'o', 's', 'p', 'h', 'e', 'r', 'e', '_', 'm', 'o', 'd', 'e', 'l']]), (['l', 'o', 'n', 'g', '_', 'n', 'a', 'm', 'e'], .str ['h', 'e', 'i', 'g', 'h', 't', ' ', 'o', 'f', ' ', 't', 'h', 'e', ' ', 't', 'o', 'p', ' ', 'l', 'e', 'v', 'e', 'l']), (['u', 'n', 'i', 't', 's'], .str ['m'])]),
  -- [[hs]] name = hm0; cmap = cmo.amp [[[attrs]]] standard_name = sea_surface_wave_significant_height,significant_height_of_wind_and_swell_waves; long_name = Significant wave height,Significant height of wind and swell waves; units = m
  (['h', 's'], [(['n', 'a', 'm', 'e'], .str ['h', 'm', '0']), (['c', 'm', 'a', 'p'], .str ['c', 'm', 'o', '.', 'a', 'm', 'p'])],
    [(['s', 't', 'a', 'n', 'd', 'a', 'r', 'd', '_', 'n', 'a', 'm', 'e'], .list [['s', 'e', 'a', '_', 's', 'u', 'r', 'f', 'a', 'c', 'e', '_', 'w', 'a', 'v', 'e', '_', 's', 'i', 'g', 'n', 'i', 'f', 'i', 'c', 'a', 'n', 't', '_', 'h', 'e', 'i', 'g', 'h', 't'], ['s', 'i', 'g', 'n', 'i', 'f', 'i', 'c', 'a', 'n', 't', '_', 'h', 'e', 'i', 'g', 'h', 't', '_', 'o', 'f', '_', 'w', 'i', 'n', 'd', '_', 'a', 'n', 'd', '_', 's', 'w', 'e', 'l', 'l', '_', 'w', 'a', 'v', 'e', 's']]), (['l', 'o', 'n', 'g', '_', 'n', 'a', 'm', 'e'], .list [['S', 'i', 'g', 'n', 'i', 'f', 'i', 'c', 'a', 'n', 't', ' ', 'w', 'a', 'v', 'e', ' ', 'h', 'e', 'i', 'g', 'h', 't'], ['S', 'i', 'g', 'n', 'i', 'f', 'i', 'c', 'a', 'n', 't', ' ', 'h', 'e', 'i', 'g', 'h', 't', ' ', 'o', 'f', ' ', 'w', 'i', 'n', 'd', ' ', 'a', 'n', 'd', ' ', 's', 'w', 'e', 'l', 'l', ' ', 'w', 'a', 'v', 'e', 's']]), (['u', 'n', 'i', 't', 's'], .str ['m'])]),
  -- [[mssx]]  [[[attrs]]] standard_name = eastward_mean_square_slope,x_mean_square_slope; long_name = Eastward mean square slope; units = m m-1
  (['m', 's', 's', 'x'], [],
    [(['s', 't', 'a', 'n', 'd', 'a', 'r', 'd', '_', 'n', 'a', 'm', 'e'], .list [['e', 'a', 's', 't', 'w', 'a', 'r', 'd', '_', 'm', 'e', 'a', 'n', '_', 's', 'q', 'u', 'a', 'r', 'e', '_', 's', 'l', 'o', 'p', 'e'], ['x', '_', 'm', 'e', 'a', 'n', '_', 's', 'q', 'u', 'a', 'r', 'e', '_', 's', 'l', 'o', 'p', 'e']]), (['l', 'o', 'n', 'g', '_', 'n', 'a', 'm', 'e'], .str ['E', 'a', 's', 't', 'w', 'a', 'r', 'd', ' ', 'm', 'e', 'a', 'n', ' ', 's', 'q', 'u', 'a', 'r', 'e', ' ', 's', 'l', 'o', 'p', 'e']), (['u', 'n', 'i', 't', 's'], .str ['m', ' ', 'm', '-', '1'])]),
  -- [[mssy]]  [[[attrs]]] standard_name = nortward_mean_square_slope,y_mean_square_slope; long_name = Northward mean square slope; units = m m-1
  (['m', 's', 's', 'y'], [],
    [(['s', 't', 'a', 'n', 'd', 'a', 'r', 'd', '_', 'n', 'a', 'm', 'e'], .list [['n', 'o', 'r', 't', 'w', 'a', 'r', 'd', '_', 'm', 'e', 'a', 'n', '_', 's', 'q', 'u', 'a', 'r', 'e', '_', 's', 'l', 'o', 'p', 'e'], ['y', '_', 'm', 'e', 'a', 'n', '_', 's', 'q', 'u', 'a', 'r', 'e', '_', 's', 'l', 'o', 'p', 'e']]), (['l', 'o', 'n', 'g', '_', 'n', 'a', 'm', 'e'], .str ['N', 'o', 'r', 't', 'h', 'w', 'a', 'r', 'd', ' ', 'm', 'e', 'a', 'n', ' ', 's', 'q', 'u', 'a', 'r', 'e', ' ', 's', 'l', 'o', 'p', 'e']), (['u', 'n', 'i', 't', 's'], .str ['m', ' ', 'm', '-', '1'])]),
  -- [[mss]] name = mss [[[attrs]]] standard_name = mean_square_slope; long_name = mean square slope; units = m m-1
  (['m', 's', 's'], [(['n', 'a', 'm', 'e'], .str ['m', 's', 's'])],
    [(['s', 't', 'a', 'n', 'd', 'a', 'r', 'd', '_', 'n', 'a', 'm', 'e'], .str ['m', 'e', 'a', 'n', '_', 's', 'q', 'u', 'a', 'r', 'e', '_', 's', 'l', 'o', 'p', 'e']), (['l', 'o', 'n', 'g', '_', 'n', 'a', 'm', 'e'], .str ['m', 'e', 'a', 'n', ' ', 's', 'q', 'u', 'a', 'r', 'e', ' ', 's', 'l', 'o', 'p', 'e']), (['u', 'n', 'i', 't', 's'], .str ['m', ' ', 'm', '-', '1'])]),
  -- [[mlw]] cmap = cmo.tempo [[[attrs]]] standard_name = mean_wave_length; long_name = Mean wave length; units = m
  (['m', 'l', 'w'], [(['c', 'm', 'a', 'p'], .str ['c', 'm', 'o', '.', 't', 'e', 'm', 'p', 'o'])],
    [(['s', 't', 'a', 'n', 'd', 'a', 'r', 'd', '_', 'n', 'a', 'm', 'e'], .str ['m', 'e', 'a', 'n', '_', 'w', 'a', 'v', 'e', '_', 'l', 'e', 'n', 'g', 't', 'h']), (['l', 'o', 'n', 'g', '_', 'n', 'a', 'm', 'e'], .str ['M', 'e', 'a', 'n', ' ', 'w', 'a', 'v', 'e', ' ', 'l', 'e', 'n', 'g', 't', 'h']), (['u', 'n', 'i', 't', 's'], .str ['m'])]),
  -- [[t0m1]]  [[[attrs]]] standard_name = sea_surface_wind_wave_mean_period_from_variance_spectral_density_inverse_frequency_moment; long_name = Mean wave period; units = s; cmap = cmo.tempo
  (['t', '0', 'm', '1'], [],
    [(['s', 't', 'a', 'n', 'd', 'a', 'r', 'd', '_', 'n', 'a', 'm', 'e'], .str ['s', 'e', 'a', '_', 's', 'u', 'r', 'f', 'a', 'c', 'e', '_', 'w', 'i', 'n', 'd', '_', 'w', 'a', 'v', 'e', '_', 'm', 'e', 'a', 'n', '_', 'p', 'e', 'r', 'i', 'o', 'd', '_', 'f', 'r', 'o', 'm', '_', 'v', 'a', 'r', 'i', 'a', 'n', 'c', 'e', '_', 's', 'p', 'e', 'c', 't', 'r', 'a', 'l', '_', 'd', 'e', 'n', 's', 'i', 't', 'y', '_', 'i', 'n', 'v', 'e', 'r', 's', 'e', '_', 'f', 'r', 'e', 'q', 'u', 'e', 'n', 'c', 'y', '_', 'm', 'o', 'm', 'e', 'n', 't']), (['l', 'o', 'n', 'g', '_', 'n', 'a', 'm', 'e'], .str ['M', 'e', 'a', 'n', ' ', 'w', 'a', 'v', 'e', ' ', 'p', 'e', 'r', 'i', 'o', 'd']), (['u', 'n', 'i', 't', 's'], .str ['s']), (['c', 'm', 'a', 'p'], .str ['c', 'm', 'o', '.', 't', 'e', 'm', 'p', 'o'])]),
  -- [[dp]] name = dp; cmap = cmo.phase:cyc360 [[[attrs]]] standard_name = sea_surface_wave_peak_direction; long_name = Peak direction; units = degrees
  (['d', 'p'], [(['n', 'a', 'm', 'e'], .str ['d', 'p']), (['c', 'm', 'a', 'p'], .str ['c', 'm', 'o', '.', 'p', 'h', 'a', 's', 'e', ':', 'c', 'y', 'c', '3', '6', '0'])],
    [(['s', 't', 'a', 'n', 'd', 'a', 'r', 'd', '_', 'n', 'a', 'm', 'e'], .str ['s', 'e', 'a', '_', 's', 'u', 'r', 'f', 'a', 'c', 'e', '_', 'w', 'a', 'v', 'e', '_', 'p', 'e', 'a', 'k', '_', 'd', 'i', 'r', 'e', 'c', 't', 'i', 'o', 'n']), (['l', 'o', 'n', 'g', '_', 'n', 'a', 'm', 'e'], .str ['P', 'e', 'a', 'k', ' ', 'd', 'i', 'r', 'e', 'c', 't', 'i', 'o', 'n']), (['u', 'n', 'i', 't', 's'], .str ['d', 'e', 'g', 'r', 'e', 'e', 's'])]),
  -- [[tp]] cmap = cmo.tempo [[[attrs]]] standard_name = sea_surface_wave_peak_period; long_name = Peak period; units = s
  (['t', 'p'], [(['c', 'm', 'a', 'p'], .str ['c', 'm', 'o', '.', 't', 'e', 'm', 'p', 'o'])],
    [(['s', 't', 'a', 'n', 'd', 'a', 'r', 'd', '_', 'n', 'a', 'm', 'e'], .str ['s', 'e', 'a', '_', 's', 'u', 'r', 'f', 'a', 'c', 'e', '_', 'w', 'a', 'v', 'e', '_', 'p', 'e', 'a', 'k', '_', 'p', 'e', 'r', 'i', 'o', 'd']), (['l', 'o', 'n', 'g', '_', 'n', 'a', 'm', 'e'], .str ['P', 'e', 'a', 'k', ' ', 'p', 'e', 'r', 'i', 'o', 'd']), (['u', 'n', 'i', 't', 's'], .str ['s'])]),
  -- [[fp]] cmap = cmo.tempo [[[attrs]]] standard_name = peak_frequency_of_wind_and_swell_waves; long_name = Peak frequency,Frequency of wind and swell waves at spectral peak; units = s-1
  (['f', 'p'], [(['c', 'm', 'a', 'p'], .str ['c', 'm', 'o', '.', 't', 'e', 'm', 'p', 'o'])],
    [(['s', 't', 'a', 'n', 'd', 'a', 'r', 'd', '_', 'n', 'a', 'm', 'e'], .str ['p', 'e', 'a', 'k', '_', 'f', 'r', 'e', 'q', 'u', 'e', 'n', 'c', 'y', '_', 'o', 'f', '_', 'w', 'i', 'n', 'd', '_', 'a', 'n', 'd', '_', 's', 'w', 'e', 'l', 'l', '_', 'w', 'a', 'v', 'e', 's']), (['l', 'o', 'n', 'g', '_', 'n', 'a', 'm', 'e'], .list [['P', 'e', 'a', 'k', ' ', 'f', 'r', 'e', 'q', 'u', 'e', 'n', 'c', 'y'], ['F', 'r', 'e', 'q', 'u', 'e', 'n', 'c', 'y', ' ', 'o', 'f', ' ', 'w', 'i', 'n', 'd', ' ', 'a', 'n', 'd', ' ', 's', 'w', 'e', 'l', 'l', ' ', 'w', 'a', 'v', 'e', 's', ' ', 'a', 't', ' ', 's', 'p', 'e', 'c', 't', 'r', 'a', 'l', ' ', 'p', 'e', 'a', 'k']]), (['u', 'n', 'i', 't', 's'], .str ['s', '-', '1'])]),
  -- [[th1p]] name = dir; cmap = cmo.phase:cyc360 [[[attrs]]] standard_name = sea_surface_wave_from_direction; long_name = Mean wave direction,Mean direction of wind and swell waves at spectral peak; units = degree
  (['t', 'h', '1', 'p'], [(['n', 'a', 'm', 'e'], .str ['d', 'i', 'r']), (['c', 'm', 'a', 'p'], .str ['c', 'm', 'o', '.', 'p', 'h', 'a', 's', 'e', ':', 'c', 'y', 'c', '3', '6', '0'])],
    [(['s', 't', 'a', 'n', 'd', 'a', 'r', 'd', '_', 'n', 'a', 'm', 'e'], .str ['s', 'e', 'a', '_', 's', 'u', 'r', 'f', 'a', 'c', 'e', '_', 'w', 'a', 'v', 'e', '_', 'f', 'r', 'o', 'm', '_', 'd', 'i', 'r', 'e', 'c', 't', 'i', 'o', 'n']), (['l', 'o', 'n', 'g', '_', 'n', 'a', 'm', 'e'], .list [['M', 'e', 'a', 'n', ' ', 'w', 'a', 'v', 'e', ' ', 'd', 'i', 'r', 'e', 'c', 't', 'i', 'o', 'n'], ['M', 'e', 'a', 'n', ' ', 'd', 'i', 'r', 'e', 'c', 't', 'i', 'o', 'n', ' ', 'o', 'f', ' ', 'w', 'i', 'n', 'd', ' ', 'a', 'n', 'd', ' ', 's', 'w', 'e', 'l', 'l', ' ', 'w', 'a', 'v', 'e', 's', ' ', 'a', 't', ' ', 's', 'p', 'e', 'c', 't', 'r', 'a', 'l', ' ', 'p', 'e', 'a', 'k']]), (['u', 'n', 'i', 't', 's'], .str ['d', 'e', 'g', 'r', 'e', 'e'])]),
  -- [[char]] name = cha [[[attrs]]] standard_name = charnock_coefficient_for_surface_roughness_length_for_momentum_in_air; long_name = Charnock coefficient for surface roughness length for momentum in air
  (['c', 'h', 'a', 'r'], [(['n', 'a', 'm', 'e'], .str ['c', 'h', 'a'])],
    [(['s', 't', 'a', 'n', 'd', 'a', 'r', 'd', '_', 'n', 'a', 'm', 'e'], .str ['c', 'h', 'a', 'r', 'n', 'o', 'c', 'k', '_', 'c', 'o', 'e', 'f', 'f', 'i', 'c', 'i', 'e', 'n', 't', '_', 'f', 'o', 'r', '_', 's', 'u', 'r', 'f', 'a', 'c', 'e', '_', 'r', 'o', 'u', 'g', 'h', 'n', 'e', 's', 's', '_', 'l', 'e', 'n', 'g', 't', 'h', '_', 'f', 'o', 'r', '_', 'm', 'o', 'm', 'e', 'n', 't', 'u', 'm', '_', 'i', 'n', '_', 'a', 'i', 'r']), (['l', 'o', 'n', 'g', '_', 'n', 'a', 'm', 'e'], .str ['C', 'h', 'a', 'r', 'n', 'o', 'c', 'k', ' ', 'c', 'o', 'e', 'f', 'f', 'i', 'c', 'i', 'e', 'n', 't', ' ', 'f', 'o', 'r', ' ', 's', 'u', 'r', 'f', 'a', 'c', 'e', ' ', 'r', 'o', 'u', 'g', 'h', 'n', 'e', 's', 's', ' ', 'l', 'e', 'n', 'g', 't', 'h', ' ', 'f', 'o', 'r', ' ', 'm', 'o', 'm', 'e', 'n', 't', 'u', 'm', ' ', 'i', 'n', ' ', 'a', 'i', 'r'])]),
  -- [[ubr]] cmap = cmo.amp [[[attrs]]] standard_name = rms_amplitude_of_orbital_bottom_velocity_of_wind_and_swell_waves; long_name = Near bottom rms velocities; units = m s-1
  (['u', 'b', 'r'], [(['c', 'm', 'a', 'p'], .str ['c', 'm', 'o', '.', 'a', 'm', 'p'])],
    [(['s', 't', 'a', 'n', 'd', 'a', 'r', 'd', '_', 'n', 'a', 'm', 'e'], .str ['r', 'm', 's', '_', 'a', 'm', 'p', 'l', 'i', 't', 'u', 'd', 'e', '_', 'o', 'f', '_', 'o', 'r', 'b', 'i', 't', 'a', 'l', '_', 'b', 'o', 't', 't', 'o', 'm', '_', 'v', 'e', 'l', 'o', 'c', 'i', 't', 'y', '_', 'o', 'f', '_', 'w', 'i', 'n', 'd', '_', 'a', 'n', 'd', '_', 's', 'w', 'e', 'l', 'l', '_', 'w', 'a', 'v', 'e', 's']), (['l', 'o', 'n', 'g', '_', 'n', 'a', 'm', 'e'], .str ['N', 'e', 'a', 'r', ' ', 'b', 'o', 't', 't', 'o', 'm', ' ', 'r', 'm', 's', ' ', 'v', 'e', 'l', 'o', 'c', 'i', 't', 'i', 'e', 's']), (['u', 'n', 'i', 't', 's'], .str ['m', ' ', 's', '-', '1'])]),
  -- [[uubr]] cmap = cmo.amp [[[attrs]]] standard_name = rms_of_bottom_zonal_velocity_amplitude; long_name = Rms of near bottom zonal velocities; units = m s-1
  (['u', 'u', 'b', 'r'], [(['c', 'm', 'a', 'p'], .str ['c', 'm', 'o', '.', 'a', 'm', 'p'])],
    [(['s', 't', 'a', 'n', 'd', 'a', 'r', 'd', '_', 'n', 'a', 'm', 'e'], .str ['r', 'm', 's', '_', 'o', 'f', '_', 'b', 'o', 't', 't', 'o', 'm', '_', 'z', 'o', 'n', 'a', 'l', '_', 'v', 'e', 'l', 'o', 'c', 'i', 't', 'y', '_', 'a', 'm', 'p', 'l', 'i', 't', 'u', 'd', 'e']), (['l', 'o', 'n', 'g', '_', 'n', 'a', 'm', 'e'], .str ['R', 'm', 's', ' ', 'o', 'f', ' ', 'n', 'e', 'a', 'r', ' ', 'b', 'o', 't', 't', 'o', 'm', ' ', 'z', 'o', 'n', 'a', 'l', ' ', 'v', 'e', 'l', 'o', 'c', 'i', 't', 'i', 'e', 's']), (['u', 'n', 'i', 't', 's'], .str ['m', ' ', 's', '-', '1'])]),
  -- [[vubr]] cmap = cmo.amp [[[attrs]]] standard_name = rms_of_bottom_meridional_velocity_amplitude; long_name = Rms of near bottom meridional velocities; units = m s-1
  (['v', 'u', 'b', 'r'], [(['c', 'm', 'a', 'p'], .str ['c', 'm', 'o', '.', 'a', 'm', 'p'])],
    [(['s', 't', 'a', 'n', 'd', 'a', 'r', 'd', '_', 'n', 'a', 'm', 'e'], .str ['r', 'm', 's', '_', 'o', 'f', '_', 'b', 'o', 't', 't', 'o', 'm', '_', 'm', 'e', 'r', 'i', 'd', 'i', 'o', 'n', 'a', 'l', '_', 'v', 'e', 'l', 'o', 'c', 'i', 't', 'y', '_', 'a', 'm', 'p', 'l', 'i', 't', 'u', 'd', 'e']), (['l', 'o', 'n', 'g', '_', 'n', 'a', 'm', 'e'], .str ['R', 'm', 's', ' ', 'o', 'f', ' ', 'n', 'e', 'a', 'r', ' ', 'b', 'o', 't', 't', 'o', 'm', ' ', 'm', 'e', 'r', 'i', 'd', 'i', 'o', 'n', 'a', 'l', ' ', 'v', 'e', 'l', 'o', 'c', 'i', 't', 'i', 'e', 's']), (['u', 'n', 'i', 't', 's'], .str ['m', ' ', 's', '-', '1'])]),
  -- [[bhd]]  [[[attrs]]] standard_name = bernoulli_head_pressure_of_wind_and_swell_waves; long_name = Radiation pressure (Bernoulli head); units = N s-1
  (['b', 'h', 'd'], [],
    [(['s', 't', 'a', 'n', 'd', 'a', 'r', 'd', '_', 'n', 'a', 'm', 'e'], .str ['b', 'e', 'r', 'n', 'o', 'u', 'l', 'l', 'i', '_', 'h', 'e', 'a', 'd', '_', 'p', 'r', 'e', 's', 's', 'u', 'r', 'e', '_', 'o', 'f', '_', 'w', 'i', 'n', 'd', '_', 'a', 'n', 'd', '_', 's', 'w', 'e', 'l', 'l', '_', 'w', 'a', 'v', 'e', 's']), (['l', 'o', 'n', 'g', '_', 'n', 'a', 'm', 'e'], .str ['R', 'a', 'd', 'i', 'a', 't', 'i', 'o', 'n', ' ', 'p', 'r', 'e', 's', 's', 'u', 'r', 'e', ' ', '(', 'B', 'e', 'r', 'n', 'o', 'u', 'l', 'l', 'i', ' ', 'h', 'e', 'a', 'd', ')']), (['u', 'n', 'i', 't', 's'], .str ['N', ' ', 's', '-', '1'])]),
  -- [[foc]] name = phioc [[[attrs]]] standard_name = turbulent_kinetic_energy_flux_into_sea_water_due_to_surface_dissipation_wave; long_name = Wave mixing kinetic turbulent energy due to surface breaking wave; units = W m-2,m3 s-3
  (['f', 'o', 'c'], [(['n', 'a', 'm', 'e'], .str ['p', 'h', 'i', 'o', 'c'])],
    [(['s', 't', 'a', 'n', 'd', 'a', 'r', 'd', '_', 'n', 'a', 'm', 'e'], .str ['t', 'u', 'r', 'b', 'u', 'l', 'e', 'n', 't', '_', 'k', 'i', 'n', 'e', 't', 'i', 'c', '_', 'e', 'n', 'e', 'r', 'g', 'y', '_', 'f', 'l', 'u', 'x', '_', 'i', 'n', 't', 'o', '_', 's', 'e', 'a', '_', 'w', 'a', 't', 'e', 'r', '_', 'd', 'u', 'e', '_', 't', 'o', '_', 's', 'u', 'r', 'f', 'a', 'c', 'e', '_', 'd', 'i', 's', 's', 'i', 'p', 'a', 't', 'i', 'o', 'n', '_', 'w', 'a', 'v', 'e']), (['l', 'o', 'n', 'g', '_', 'n', 'a', 'm', 'e'], .str ['W', 'a', 'v', 'e', ' ', 'm', 'i', 'x', 'i', 'n', 'g', ' ', 'k', 'i', 'n', 'e', 't', 'i', 'c', ' ', 't', 'u', 'r', 'b', 'u', 'l', 'e', 'n', 't', ' ', 'e', 'n', 'e', 'r', 'g', 'y', ' ', 'd', 'u', 'e', ' ', 't', 'o', ' ', 's', 'u', 'r', 'f', 'a', 'c', 'e', ' ', 'b', 'r', 'e', 'a', 'k', 'i', 'n', 'g', ' ', 'w', 'a', 'v', 'e']), (['u', 'n', 'i', 't', 's'], .list [['W', ' ', 'm', '-', '2'], ['m', '3', ' ', 's', '-', '3']])]),
  -- [[utwo]] name = tauox [[[attrs]]] standard_name = x_component_of_surface_wave_ocean_momentum_flux,northward_wave_to_ocean_stress; long_name = Zonal component of the surface wave-ocean momentum flux; units = m2 s-2
  (['u', 't', 'w', 'o'], [(['n', 'a', 'm', 'e'], .str ['t', 'a', 'u', 'o', 'x'])],
    [(['s', 't', 'a', 'n', 'd', 'a', 'r', 'd', '_', 'n', 'a', 'm', 'e'], .list [['x', '_', 'c', 'o', 'm', 'p', 'o', 'n', 'e', 'n', 't', '_', 'o', 'f', '_', 's', 'u', 'r', 'f', 'a', 'c', 'e', '_', 'w', 'a', 'v', 'e', '_', 'o', 'c', 'e', 'a', 'n', '_', 'm', 'o', 'm', 'e', 'n', 't', 'u', 'm', '_', 'f', 'l', 'u', 'x'], ['n', 'o', 'r', 't', 'h', 'w', 'a', 'r', 'd', '_', 'w', 'a', 'v', 'e', '_', 't', 'o', '_', 'o', 'c', 'e', 'a', 'n', '_', 's', 't', 'r', 'e', 's', 's']]), (['l', 'o', 'n', 'g', '_', 'n', 'a', 'm', 'e'], .str ['Z', 'o', 'n', 'a', 'l', ' ', 'c', 'o', 'm', 'p', 'o', 'n', 'e', 'n', 't', ' ', 'o', 'f', ' ', 't', 'h', 'e', ' ', 's', 'u', 'r', 'f', 'a', 'c', 'e', ' ', 'w', 'a', 'v', 'e', '-', 'o', 'c', 'e', 'a', 'n', ' ', 'm', 'o', 'm', 'e', 'n', 't', 'u', 'm', ' ', 'f', 'l', 'u', 'x']), (['u', 'n', 'i', 't', 's'], .str ['m', '2', ' ', 's', '-', '2'])]),
  -- [[vtwo]] name = tauoy [[[attrs]]] standard_name = y_component_of_surface_wave_ocean_momentum_flux,northward_wave_to_ocean_stress; long_name = Meridional component of the surface wave-ocean momentum flux; units = m2 s-2
  (['v', 't', 'w', 'o'], [(['n', 'a', 'm', 'e'], .str ['t', 'a', 'u', 'o', 'y'])],
    [(['s', 't', 'a', 'n', 'd', 'a', 'r', 'd', '_', 'n', 'a', 'm', 'e'], .list [['y', '_', 'c', 'o', 'm', 'p', 'o', 'n', 'e', 'n', 't', '_', 'o', 'f', '_', 's', 'u', 'r', 'f', 'a', 'c', 'e', '_', 'w', 'a', 'v', 'e', '_', 'o', 'c', 'e', 'a', 'n', '_', 'm', 'o', 'm', 'e', 'n', 't', 'u', 'm', '_', 'f', 'l', 'u', 'x'], ['n', 'o', 'r', 't', 'h', 'w', 'a', 'r', 'd', '_', 'w', 'a', 'v', 'e', '_', 't', 'o', '_', 'o', 'c', 'e', 'a', 'n', '_', 's', 't', 'r', 'e', 's', 's']]), (['l', 'o', 'n', 'g', '_', 'n', 'a', 'm', 'e'], .str ['M', 'e', 'r', 'i', 'd', 'i', 'o', 'n', 'a', 'l', ' ', 'c', 'o', 'm', 'p', 'o', 'n', 'e', 'n', 't', ' ', 'o', 'f', ' ', 't', 'h', 'e', ' ', 's', 'u', 'r', 'f', 'a', 'c', 'e', ' ', 'w', 'a', 'v', 'e', '-', 'o', 'c', 'e', 'a', 'n', ' ', 'm', 'o', 'm', 'e', 'n', 't', 'u', 'm', ' ', 'f', 'l', 'u', 'x']), (['u', 'n', 'i', 't', 's'], .str ['m', '2', ' ', 's', '-', '2'])]),
  -- [[utaw]]  [[[attrs]]] standard_name = x_component_of_wave_supported_wind_stress; long_name = Eastward wave supported wind stress,Zonal component of the atmosphere-wave momentum flux; units = m2 s-2
  (['u', 't', 'a', 'w'], [],
    [(['s', 't', 'a', 'n', 'd', 'a', 'r', 'd', '_', 'n', 'a', 'm', 'e'], .str ['x', '_', 'c', 'o', 'm', 'p', 'o', 'n', 'e', 'n', 't', '_', 'o', 'f', '_', 'w', 'a', 'v', 'e', '_', 's', 'u', 'p', 'p', 'o', 'r', 't', 'e', 'd', '_', 'w', 'i', 'n', 'd', '_', 's', 't', 'r', 'e', 's', 's']), (['l', 'o', 'n', 'g', '_', 'n', 'a', 'm', 'e'], .list [['E', 'a', 's', 't', 'w', 'a', 'r', 'd', ' ', 'w', 'a', 'v', 'e', ' ', 's', 'u', 'p', 'p', 'o', 'r', 't', 'e', 'd', ' ', 'w', 'i', 'n', 'd', ' ', 's', 't', 'r', 'e', 's', 's'], ['Z', 'o', 'n', 'a', 'l', ' ', 'c', 'o', 'm', 'p', 'o', 'n', 'e', 'n', 't', ' ', 'o', 'f', ' ', 't', 'h', 'e', ' ', 'a', 't', 'm', 'o', 's', 'p', 'h', 'e', 'r', 'e', '-', 'w', 'a', 'v', 'e', ' ', 'm', 'o', 'm', 'e', 'n', 't', 'u', 'm', ' ', 'f', 'l', 'u', 'x']]), (['u', 'n', 'i', 't', 's'], .str ['m', '2', ' ', 's', '-', '2'])]),
  -- [[vtaw]]  [[[attrs]]] standard_name = y_component_of_wave_supported_wind_stress; long_name = Northward wave supported wind stress,Meridional component of the atmosphere-wave momentum flux; units = m2 s-2
  (['v', 't', 'a', 'w'], [],
    [(['s', 't', 'a', 'n', 'd', 'a', 'r', 'd', '_', 'n', 'a', 'm', 'e'], .str ['y', '_', 'c', 'o', 'm', 'p', 'o', 'n', 'e', 'n', 't', '_', 'o', 'f', '_', 'w', 'a', 'v', 'e', '_', 's', 'u', 'p', 'p', 'o', 'r', 't', 'e', 'd', '_', 'w', 'i', 'n', 'd', '_', 's', 't', 'r', 'e', 's', 's']), (['l', 'o', 'n', 'g', '_', 'n', 'a', 'm', 'e'], .list [['N', 'o', 'r', 't', 'h', 'w', 'a', 'r', 'd', ' ', 'w', 'a', 'v', 'e', ' ', 's', 'u', 'p', 'p', 'o', 'r', 't', 'e', 'd', ' ', 'w', 'i', 'n', 'd', ' ', 's', 't', 'r', 'e', 's', 's'], ['M', 'e', 'r', 'i', 'd', 'i', 'o', 'n', 'a', 'l', ' ', 'c', 'o', 'm', 'p', 'o', 'n', 'e', 'n', 't', ' ', 'o', 'f', ' ', 't', 'h', 'e', ' ', 'a', 't', 'm', 'o', 's', 'p', 'h', 'e', 'r', 'e', '-', 'w', 'a', 'v', 'e', ' ', 'm', 'o', 'm', 'e', 'n', 't', 'u', 'm', ' ', 'f', 'l', 'u', 'x']]), (['u', 'n', 'i', 't', 's'], .str ['m', '2', ' ', 's', '-', '2'])]),
  -- [[fbb]]  [[[attrs]]] standard_name = wave_energy_dissipation_in_bottom_boundary_layer; long_name = Wave dissipation in bottom boundary layer; units = W m-2
  (['f', 'b', 'b'], [],
    [(['s', 't', 'a', 'n', 'd', 'a', 'r', 'd', '_', 'n', 'a', 'm', 'e'], .str ['w', 'a', 'v', 'e', '_', 'e', 'n', 'e', 'r', 'g', 'y', '_', 'd', 'i', 's', 's', 'i', 'p', 'a', 't', 'i', 'o', 'n', '_', 'i', 'n', '_', 'b', 'o', 't', 't', 'o', 'm', '_', 'b', 'o', 'u', 'n', 'd', 'a', 'r', 'y', '_', 'l', 'a', 'y', 'e', 'r']), (['l', 'o', 'n', 'g', '_', 'n', 'a', 'm', 'e'], .str ['W', 'a', 'v', 'e', ' ', 'd', 'i', 's', 's', 'i', 'p', 'a', 't', 'i', 'o', 'n', ' ', 'i', 'n', ' ', 'b', 'o', 't', 't', 'o', 'm', ' ', 'b', 'o', 'u', 'n', 'd', 'a', 'r', 'y', ' ', 'l', 'a', 'y', 'e', 'r']), (['u', 'n', 'i', 't', 's'], .str ['W', ' ', 'm', '-', '2'])]),
  -- [[utbb]]  [[[attrs]]] standard_name = x_component_of_bottom_wave_ocean_momentum_flux,eastward_wave_to_bottom_boundary_layer_stress; long_name = Zonal component of the bottom wave-ocean momentum flux; units = m2 s-2
  (['u', 't', 'b', 'b'], [],
    [(['s', 't', 'a', 'n', 'd', 'a', 'r', 'd', '_', 'n', 'a', 'm', 'e'], .list [['x', '_', 'c', 'o', 'm', 'p', 'o', 'n', 'e', 'n', 't', '_', 'o', 'f', '_', 'b', 'o', 't', 't', 'o', 'm', '_', 'w', 'a', 'v', 'e', '_', 'o', 'c', 'e', 'a', 'n', '_', 'm', 'o', 'm', 'e', 'n', 't', 'u', 'm', '_', 'f', 'l', 'u', 'x'], ['e', 'a', 's', 't', 'w', 'a', 'r', 'd', '_', 'w', 'a', 'v', 'e', '_', 't', 'o', '_', 'b', 'o', 't', 't', 'o', 'm', '_', 'b', 'o', 'u', 'n', 'd', 'a', 'r', 'y', '_', 'l', 'a', 'y', 'e', 'r', '_', 's', 't', 'r', 'e', 's', 's']]), (['l', 'o', 'n', 'g', '_', 'n', 'a', 'm', 'e'], .str ['Z', 'o', 'n', 'a', 'l', ' ', 'c', 'o', 'm', 'p', 'o', 'n', 'e', 'n', 't', ' ', 'o', 'f', ' ', 't', 'h', 'e', ' ', 'b', 'o', 't', 't', 'o', 'm', ' ', 'w', 'a', 'v', 'e', '-', 'o', 'c', 'e', 'a', 'n', ' ', 'm', 'o', 'm', 'e', 'n', 't', 'u', 'm', ' ', 'f', 'l', 'u', 'x']), (['u', 'n', 'i', 't', 's'], .str ['m', '2', ' ', 's', '-', '2'])]),
  -- [[vtbb]]  [[[attrs]]] standard_name = y_component_of_bottom_wave_ocean_momentum_flux,northward_wave_to_bottom_boundary_layer_stress; long_name = Meridional component of the bottom wave-ocean momentum flux; units = m2 s-2
  (['v', 't', 'b', 'b'], [],
    [(['s', 't', 'a', 'n', 'd', 'a', 'r', 'd', '_', 'n', 'a', 'm', 'e'], .list [['y', '_', 'c', 'o', 'm', 'p', 'o', 'n', 'e', 'n', 't', '_', 'o', 'f', '_', 'b', 'o', 't', 't', 'o', 'm', '_', 'w', 'a', 'v', 'e', '_', 'o', 'c', 'e', 'a', 'n', '_', 'm', 'o', 'm', 'e', 'n', 't', 'u', 'm', '_', 'f', 'l', 'u', 'x'], ['n', 'o', 'r', 't', 'h', 'w', 'a', 'r', 'd', '_', 'w', 'a', 'v', 'e', '_', 't', 'o', '_', 'b', 'o', 't', 't', 'o', 'm', '_', 'b', 'o', 'u', 'n', 'd', 'a', 'r', 'y', '_', 'l', 'a', 'y', 'e', 'r', '_', 's', 't', 'r', 'e', 's', 's']]), (['l', 'o', 'n', 'g', '_', 'n', 'a', 'm', 'e'], .str ['M', 'e', 'r', 'i', 'd', 'i', 'o', 'n', 'a', 'l', ' ', 'c', 'o', 'm', 'p', 'o', 'n', 'e', 'n', 't', ' ', 'o', 'f', ' ', 't', 'h', 'e', ' ', 'b', 'o', 't', 't', 'o', 'm', ' ', 'w', 'a', 'v', 'e', '-', 'o', 'c', 'e', 'a', 'n', ' ', 'm', 'o', 'm', 'e', 'n', 't', 'u', 'm', ' ', 'f', 'l', 'u', 'x']), (['u', 'n', 'i', 't', 's'], .str ['m', '2', ' ', 's', '-', '2'])]),
  -- [[uuss]]  [[[attrs]]] standard_name = eastward_surface_stokes_drift; long_name = Eastward surface stokes drift; units = m s-1
  (['u', 'u', 's', 's'], [],
    [(['s', 't', 'a', 'n', 'd', 'a', 'r', 'd', '_', 'n', 'a', 'm', 'e'], .str ['e', 'a', 's', 't', 'w', 'a', 'r', 'd', '_', 's', 'u', 'r', 'f', 'a', 'c', 'e', '_', 's', 't', 'o', 'k', 'e', 's', '_', 'd', 'r', 'i', 'f', 't']), (['l', 'o', 'n', 'g', '_', 'n', 'a', 'm', 'e'], .str ['E', 'a', 's', 't', 'w', 'a', 'r', 'd', ' ', 's', 'u', 'r', 'f', 'a', 'c', 'e', ' ', 's', 't', 'o', 'k', 'e', 's', ' ', 'd', 'r', 'i', 'f', 't']), (['u', 'n', 'i', 't', 's'], .str ['m', ' ', 's', '-', '1'])]),
  -- [[vuss]]  [[[attrs]]] standard_name = northward_surface_stokes_drift; long_name = Northward surface stokes drift; units = m s-1
  (['v', 'u', 's', 's'], [],
    [(['s', 't', 'a', 'n', 'd', 'a', 'r', 'd', '_', 'n', 'a', 'm', 'e'], .str ['n', 'o', 'r', 't', 'h', 'w', 'a', 'r', 'd', '_', 's', 'u', 'r', 'f', 'a', 'c', 'e', '_', 's', 't', 'o', 'k', 'e', 's', '_', 'd', 'r', 'i', 'f', 't']), (['l', 'o', 'n', 'g', '_', 'n', 'a', 'm', 'e'], .str ['N', 'o', 'r', 't', 'h', 'w', 'a', 'r', 'd', ' ', 's', 'u', 'r', 'f', 'a', 'c', 'e', ' ', 's', 't', 'o', 'k', 'e', 's', ' ', 'd', 'r', 'i', 'f', 't']), (['u', 'n', 'i', 't', 's'], .str ['m', ' ', 's', '-', '1'])]),
  -- [[utus]]  [[[attrs]]] standard_name = eastward_stokes_transport; long_name = Eastward stokes transport; units = m2 s-1
  (['u', 't', 'u', 's'], [],
    [(['s', 't', 'a', 'n', 'd', 'a', 'r', 'd', '_', 'n', 'a', 'm', 'e'], .str ['e', 'a', 's', 't', 'w', 'a', 'r', 'd', '_', 's', 't', 'o', 'k', 'e', 's', '_', 't', 'r', 'a', 'n', 's', 'p', 'o', 'r', 't']), (['l', 'o', 'n', 'g', '_', 'n', 'a', 'm', 'e'], .str ['E', 'a', 's', 't', 'w', 'a', 'r', 'd', ' ', 's', 't', 'o', 'k', 'e', 's', ' ', 't', 'r', 'a', 'n', 's', 'p', 'o', 'r', 't']), (['u', 'n', 'i', 't', 's'], .str ['m', '2', ' ', 's', '-', '1'])]),
  -- [[vtus]]  [[[attrs]]] standard_name = northward_stokes_transport; long_name = Northward stokes transport; units = m2 s-1
  (['v', 't', 'u', 's'], [],
    [(['s', 't', 'a', 'n', 'd', 'a', 'r', 'd', '_', 'n', 'a', 'm', 'e'], .str ['n', 'o', 'r', 't', 'h', 'w', 'a', 'r', 'd', '_', 's', 't', 'o', 'k', 'e', 's', '_', 't', 'r', 'a', 'n', 's', 'p', 'o', 'r', 't']), (['l', 'o', 'n', 'g', '_', 'n', 'a', 'm', 'e'], .str ['N', 'o', 'r', 't', 'h', 'w', 'a', 'r', 'd', ' ', 's', 't', 'o', 'k', 'e', 's', ' ', 't', 'r', 'a', 'n', 's', 'p', 'o', 'r', 't']), (['u', 'n', 'i', 't', 's'], .str ['m', '2', ' ', 's', '-', '1'])]),
  -- [[mapsta]]  [[[attrs]]] standard_name = status_map; long_name = Status map; units = 1
  (['m', 'a', 'p', 's', 't', 'a'], [],
    [(['s', 't', 'a', 'n', 'd', 'a', 'r', 'd', '_', 'n', 'a', 'm', 'e'], .str ['s', 't', 'a', 't', 'u', 's', '_', 'm', 'a', 'p']), (['l', 'o', 'n', 'g', '_', 'n', 'a', 'm', 'e'], .str ['S', 't', 'a', 't', 'u', 's', ' ', 'm', 'a', 'p']), (['u', 'n', 'i', 't', 's'], .str ['1'])]),
  -- [[wlv]]  [[[attrs]]] units = m
  (['w', 'l', 'v'], [],
    [(['u', 'n', 'i', 't', 's'], .str ['m'])]),
  -- [[sig]] name = s_level,sigma,s,sigma_level [[[attrs]]] standard_name = ocean_sigma_coordinate,ocean_s_coordinate,atmosphere_sigma_coordinate,atmosphere_s_coordinate,ocean_s_coordinate_g1,ocean_s_coordinate_g2; long_name = Sigma level
  (['s', 'i', 'g'], [(['n', 'a', 'm', 'e'], .list [['s', '_', 'l', 'e', 'v', 'e', 'l'], ['s', 'i', 'g', 'm', 'a'], ['s'], ['s', 'i', 'g', 'm', 'a', '_', 'l', 'e', 'v', 'e', 'l']])],
    [(['s', 't', 'a', 'n', 'd', 'a', 'r', 'd', '_', 'n', 'a', 'm', 'e'], .list [['o', 'c', 'e', 'a', 'n', '_', 's', 'i', 'g', 'm', 'a', '_', 'c', 'o', 'o', 'r', 'd', 'i', 'n', 'a', 't', 'e'], ['o', 'c', 'e', 'a', 'n', '_', 's', '_', 'c', 'o', 'o', 'r', 'd', 'i', 'n', 'a', 't', 'e'], ['a', 't', 'm', 'o', 's', 'p', 'h', 'e', 'r', 'e', '_', 's', 'i', 'g', 'm', 'a', '_', 'c', 'o', 'o', 'r', 'd', 'i', 'n', 'a', 't', 'e'], ['a', 't', 'm', 'o', 's', 'p', 'h', 'e', 'r', 'e', '_', 's', '_', 'c', 'o', 'o', 'r', 'd', 'i', 'n', 'a', 't', 'e'], ['o', 'c', 'e', 'a', 'n', '_', 's', '_', 'c', 'o', 'o', 'r', 'd', 'i', 'n', 'a', 't', 'e', '_', 'g', '1'], ['o', 'c', 'e', 'a', 'n', '_', 's', '_', 'c', 'o', 'o', 'r', 'd', 'i', 'n', 'a', 't', 'e', '_', 'g', '2']]), (['l', 'o', 'n', 'g', '_', 'n', 'a', 'm', 'e'], .str ['S', 'i', 'g', 'm', 'a', ' ', 'l', 'e', 'v', 'e', 'l'])]),
  -- [[cs]]  [[[attrs]]] standard_name = ocean_s_coordinate_function; long_name = S-coordinate stretching curves
  (['c', 's'], [],
    [(['s', 't', 'a', 'n', 'd', 'a', 'r', 'd', '_', 'n', 'a', 'm', 'e'], .str ['o', 'c', 'e', 'a', 'n', '_', 's', '_', 'c', 'o', 'o', 'r', 'd', 'i', 'n', 'a', 't', 'e', '_', 'f', 'u', 'n', 'c', 't', 'i', 'o', 'n']), (['l', 'o', 'n', 'g', '_', 'n', 'a', 'm', 'e'], .str ['S', '-', 'c', 'o', 'o', 'r', 'd', 'i', 'n', 'a', 't', 'e', ' ', 's', 't', 'r', 'e', 't', 'c', 'h', 'i', 'n', 'g', ' ', 'c', 'u', 'r', 'v', 'e', 's'])]),
  -- [[hc]]  [[[attrs]]] standard_name = ocean_s_coordinate_thick_of_surface_resolution; long_name = Sigma-coordinate critical depth
  (['h', 'c'], [],
    [(['s', 't', 'a', 'n', 'd', 'a', 'r', 'd', '_', 'n', 'a', 'm', 'e'], .str ['o', 'c', 'e', 'a', 'n', '_', 's', '_', 'c', 'o', 'o', 'r', 'd', 'i', 'n', 'a', 't', 'e', '_', 't', 'h', 'i', 'c', 'k', '_', 'o', 'f', '_', 's', 'u', 'r', 'f', 'a', 'c', 'e', '_', 'r', 'e', 's', 'o', 'l', 'u', 't', 'i', 'o', 'n']), (['l', 'o', 'n', 'g', '_', 'n', 'a', 'm', 'e'], .str ['S', 'i', 'g', 'm', 'a', '-', 'c', 'o', 'o', 'r', 'd', 'i', 'n', 'a', 't', 'e', ' ', 'c', 'r', 'i', 't', 'i', 'c', 'a', 'l', ' ', 'd', 'e', 'p', 't', 'h'])]),
  -- [[thetas]]  [[[attrs]]] standard_name = ocean_s_coordinate_surface_control
  (['t', 'h', 'e', 't', 'a', 's'], [],
    [(['s', 't', 'a', 'n', 'd', 'a', 'r', 'd', '_', 'n', 'a', 'm', 'e'], .str ['o', 'c', 'e', 'a', 'n', '_', 's', '_', 'c', 'o', 'o', 'r', 'd', 'i', 'n', 'a', 't', 'e', '_', 's', 'u', 'r', 'f', 'a', 'c', 'e', '_', 'c', 'o', 'n', 't', 'r', 'o', 'l'])]),
  -- [[thetab]]  [[[attrs]]] standard_name = ocean_s_coordinate_bottom_control
  (['t', 'h', 'e', 't', 'a', 'b'], [],
    [(['s', 't', 'a', 'n', 'd', 'a', 'r', 'd', '_', 'n', 'a', 'm', 'e'], .str ['o', 'c', 'e', 'a', 'n', '_', 's', '_', 'c', 'o', 'o', 'r', 'd', 'i', 'n', 'a', 't', 'e', '_', 'b', 'o', 't', 't', 'o', 'm', '_', 'c', 'o', 'n', 't', 'r', 'o', 'l'])])]

/-- section `coords`, xoa/cf.cfg:995-1061 -/
def rawCoords : List RawItem := [
  -- [[time]]  [[[attrs]]] standard_name = time; long_name = Time; axis = T
  (['t', 'i', 'm', 'e'], [],
    [(['s', 't', 'a', 'n', 'd', 'a', 'r', 'd', '_', 'n', 'a', 'm', 'e'], .str ['t', 'i', 'm', 'e']), (['l', 'o', 'n', 'g', '_', 'n', 'a', 'm', 'e'], .str ['T', 'i', 'm', 'e']), (['a', 'x', 'i', 's'], .str ['T'])]),
  -- [[lon]] name = longitude,nav_lon; search_order = snu [[[attrs]]] standard_name = longitude,longitudes; long_name = Longitude; units = degrees_east,degree_east,degree_e,degrees_e,degreee,degreese; axis = X
  (['l', 'o', 'n'], [(['n', 'a', 'm', 'e'], .list [['l', 'o', 'n', 'g', 'i', 't', 'u', 'd', 'e'], ['n', 'a', 'v', '_', 'l', 'o', 'n']]), (['s', 'e', 'a', 'r', 'c', 'h', '_', 'o', 'r', 'd', 'e', 'r'], .str ['s', 'n', 'u'])],
    [(['s', 't', 'a', 'n', 'd', 'a', 'r', 'd', '_', 'n', 'a', 'm', 'e'], .list [['l', 'o', 'n', 'g', 'i', 't', 'u', 'd', 'e'], ['l', 'o', 'n', 'g', 'i', 't', 'u', 'd', 'e', 's']]), (['l', 'o', 'n', 'g', '_', 'n', 'a', 'm', 'e'], .str ['L', 'o', 'n', 'g', 'i', 't', 'u', 'd', 'e']), (['u', 'n', 'i', 't', 's'], .list [['d', 'e', 'g', 'r', 'e', 'e', 's', '_', 'e', 'a', 's', 't'], ['d', 'e', 'g', 'r', 'e', 'e', '_', 'e', 'a', 's', 't'], ['d', 'e', 'g', 'r', 'e', 'e', '_', 'e'], ['d', 'e', 'g', 'r', 'e', 'e', 's', '_', 'e'], ['d', 'e', 'g', 'r', 'e', 'e', 'e'], ['d', 'e', 'g', 'r', 'e', 'e', 's', 'e']]), (['a', 'x', 'i', 's'], .str ['X'])]),
  -- [[lat]] name = latitude,nav_lat,latitudes; search_order = snu [[[attrs]]] standard_name = latitude; long_name = Latitude; units = degrees_north,degree_north,degree_n,degrees_n,degreen,degreesn; axis = Y
  (['l', 'a', 't'], [(['n', 'a', 'm', 'e'], .list [['l', 'a', 't', 'i', 't', 'u', 'd', 'e'], ['n', 'a', 'v', '_', 'l', 'a', 't'], ['l', 'a', 't', 'i', 't', 'u', 'd', 'e', 's']]), (['s', 'e', 'a', 'r', 'c', 'h', '_', 'o', 'r', 'd', 'e', 'r'], .str ['s', 'n', 'u'])],
    [(['s', 't', 'a', 'n', 'd', 'a', 'r', 'd', '_', 'n', 'a', 'm', 'e'], .str ['l', 'a', 't', 'i', 't', 'u', 'd', 'e']), (['l', 'o', 'n', 'g', '_', 'n', 'a', 'm', 'e'], .str ['L', 'a', 't', 'i', 't', 'u', 'd', 'e']), (['u', 'n', 'i', 't', 's'], .list [['d', 'e', 'g', 'r', 'e', 'e', 's', '_', 'n', 'o', 'r', 't', 'h'], ['d', 'e', 'g', 'r', 'e', 'e', '_', 'n', 'o', 'r', 't', 'h'], ['d', 'e', 'g', 'r', 'e', 'e', '_', 'n'], ['d', 'e', 'g', 'r', 'e', 'e', 's', '_', 'n'], ['d', 'e', 'g', 'r', 'e', 'e', 'n'], ['d', 'e', 'g', 'r', 'e', 'e', 's', 'n']]), (['a', 'x', 'i', 's'], .str ['Y'])]),
  -- [[x]] name = xi [[[attrs]]] standard_name = x_grid_index; long_name = X-dimension of the grid
  (['x'], [(['n', 'a', 'm', 'e'], .str ['x', 'i'])],
    [(['s', 't', 'a', 'n', 'd', 'a', 'r', 'd', '_', 'n', 'a', 'm', 'e'], .str ['x', '_', 'g', 'r', 'i', 'd', '_', 'i', 'n', 'd', 'e', 'x']), (['l', 'o', 'n', 'g', '_', 'n', 'a', 'm', 'e'], .str ['X', '-', 'd', 'i', 'm', 'e', 'n', 's', 'i', 'o', 'n', ' ', 'o', 'f', ' ', 't', 'h', 'e', ' ', 'g', 'r', 'i', 'd'])]),
  -- [[y]] name = yi [[[attrs]]] standard_name = y_grid_index; long_name = Y-dimension of the grid
  (['y'], [(['n', 'a', 'm', 'e'], .str ['y', 'i'])],
    [(['s', 't', 'a', 'n', 'd', 'a', 'r', 'd', '_', 'n', 'a', 'm', 'e'], .str ['y', '_', 'g', 'r', 'i', 'd', '_', 'i', 'n', 'd', 'e', 'x']), (['l', 'o', 'n', 'g', '_', 'n', 'a', 'm', 'e'], .str ['Y', '-', 'd', 'i', 'm', 'e', 'n', 's', 'i', 'o', 'n', ' ', 'o', 'f', ' ', 't', 'h', 'e', ' ', 'g', 'r', 'i', 'd'])]),
  -- [[depth]] inherit = data_vars:depth [[[attrs]]] axis = Z
  (['d', 'e', 'p', 't', 'h'], [(['i', 'n', 'h', 'e', 'r', 'i', 't'], .str ['d', 'a', 't', 'a', '_', 'v', 'a', 'r', 's', ':', 'd', 'e', 'p', 't', 'h'])],
    [(['a', 'x', 'i', 's'], .str ['Z'])]),
  -- [[altitude]] inherit = data_vars:altitude [[[attrs]]] axis = Z
  (['a', 'l', 't', 'i', 't', 'u', 'd', 'e'], [(['i', 'n', 'h', 'e', 'r', 'i', 't'], .str ['d', 'a', 't', 'a', '_', 'v', 'a', 'r', 's', ':', 'a', 'l', 't', 'i', 't', 'u', 'd', 'e'])],
    [(['a', 'x', 'i', 's'], .str ['Z'])]),
  -- [[sig]] inherit = data_vars:sig [[[attrs]]] axis = Z
  (['s', 'i', 'g'], [(['i', 'n', 'h', 'e', 'r', 'i', 't'], .str ['d', 'a', 't', 'a', '_', 'v', 'a', 'r', 's', ':', 's', 'i', 'g'])],
    [(['a', 'x', 'i', 's'], .str ['Z'])]),
  -- [[level]] inherit = sig; name = model_level [[[attrs]]] standard_name = model_level_number; long_name = Model level number; axis = Z
  (['l', 'e', 'v', 'e', 'l'], [(['i', 'n', 'h', 'e', 'r', 'i', 't'], .str ['s', 'i', 'g']), (['n', 'a', 'm', 'e'], .str ['m', 'o', 'd', 'e', 'l', '_', 'l', 'e', 'v', 'e', 'l'])],
    [(['s', 't', 'a', 'n', 'd', 'a', 'r', 'd', '_', 'n', 'a', 'm', 'e'], .str ['m', 'o', 'd', 'e', 'l', '_', 'l', 'e', 'v', 'e', 'l', '_', 'n', 'u', 'm', 'b', 'e', 'r']), (['l', 'o', 'n', 'g', '_', 'n', 'a', 'm', 'e'], .str ['M', 'o', 'd', 'e', 'l', ' ', 'l', 'e', 'v', 'e', 'l', ' ', 'n', 'u', 'm', 'b', 'e', 'r']), (['a', 'x', 'i', 's'], .str ['Z'])]),
  -- [[forecast]]  [[[attrs]]] standard_name = fct,forecast_time; long_name = Forecast; axis = F
  (['f', 'o', 'r', 'e', 'c', 'a', 's', 't'], [],
    [(['s', 't', 'a', 'n', 'd', 'a', 'r', 'd', '_', 'n', 'a', 'm', 'e'], .list [['f', 'c', 't'], ['f', 'o', 'r', 'e', 'c', 'a', 's', 't', '_', 't', 'i', 'm', 'e']]), (['l', 'o', 'n', 'g', '_', 'n', 'a', 'm', 'e'], .str ['F', 'o', 'r', 'e', 'c', 'a', 's', 't']), (['a', 'x', 'i', 's'], .str ['F'])])]

/-- section `dims`, xoa/cf.cfg:1062-1067 -/
def rawDims : List (Str × FV) := [(['x'], .list [['n', 'x'], ['n', 'i'], ['x'], ['i', 'm', 't'], ['i', 'p', 'i'], ['x', 'i']]), (['y'], .list [['n', 'y'], ['n', 'j'], ['y'], ['j', 'm', 't'], ['j', 'p', 'j'], ['y', 'i']]), (['z'], .list [['n', 'z'], ['n', 'k'], ['z'], ['k', 'm', 't'], ['l', 'e', 'v', 'e', 'l'], ['z', 'i']]), (['t'], .list [['n', 't'], ['t']]), (['f'], .str ['n', 'f'])]

end Xoa
