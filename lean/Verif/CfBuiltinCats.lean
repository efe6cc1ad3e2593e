import Verif.CfBuiltin

/-!
# The built-in CF specifications, as they are after loading

Generated by evaluating `builtinLoaded`; the kernel checks below that these are the result of the load.
-/

set_option maxRecDepth 20000

namespace Xoa

/-- the built-in data variables (xoa/cf.cfg:1-994 after loading, xoa/cf.py:761-786) -/
def builtinVars : CfCat := [
  -- ptemp
  (['p', 't', 'e', 'm', 'p'], ⟨[],
    [(['s', 't', 'a', 'n', 'd', 'a', 'r', 'd', '_', 'n', 'a', 'm', 'e'], .list [['s', 'e', 'a', '_', 'w', 'a', 't', 'e', 'r', '_', 'p', 'o', 't', 'e', 'n', 't', 'i', 'a', 'l', '_', 't', 'e', 'm', 'p', 'e', 'r', 'a', 't', 'u', 'r', 'e']]), (['l', 'o', 'n', 'g', '_', 'n', 'a', 'm', 'e'], .list [['P', 'o', 't', 'e', 'n', 't', 'i', 'a', 'l', ' ', 't', 'e', 'm', 'p', 'e', 'r', 'a', 't', 'u', 'r', 'e']]), (['u', 'n', 'i', 't', 's'], .list [['d', 'e', 'g', 'r', 'e', 'e', 's', '_', 'c', 'e', 'l', 's', 'i', 'u', 's']])],
    ['s', 'n']⟩),
  -- temp
  (['t', 'e', 'm', 'p'], ⟨[['t', 'e', 'm', 'p', 'e', 'r', 'a', 't', 'u', 'r', 'e']],
    [(['s', 't', 'a', 'n', 'd', 'a', 'r', 'd', '_', 'n', 'a', 'm', 'e'], .list [['s', 'e', 'a', '_', 'w', 'a', 't', 'e', 'r', '_', 't', 'e', 'm', 'p', 'e', 'r', 'a', 't', 'u', 'r', 'e'], ['s', 'e', 'a', '_', 'w', 'a', 't', 'e', 'r', '_', 'p', 'o', 't', 'e', 'n', 't', 'i', 'a', 'l', '_', 't', 'e', 'm', 'p', 'e', 'r', 'a', 't', 'u', 'r', 'e']]), (['l', 'o', 'n', 'g', '_', 'n', 'a', 'm', 'e'], .list [['T', 'e', 'm', 'p', 'e', 'r', 'a', 't', 'u', 'r', 'e'], ['P', 'o', 't', 'e', 'n', 't', 'i', 'a', 'l', ' ', 't', 'e', 'm', 'p', 'e', 'r', 'a', 't', 'u', 'r', 'e']]), (['u', 'n', 'i', 't', 's'], .list [['d', 'e', 'g', 'r', 'e', 'e', 's', '_', 'c', 'e', 'l', 's', 'i', 'u', 's']])],
    ['s', 'n']⟩),
  -- sal
  (['s', 'a', 'l'], ⟨[['p', 's', 'a', 'l'], ['s', 'a', 'l', 'i', 'n', 'i', 't', 'y']],
    [(['s', 't', 'a', 'n', 'd', 'a', 'r', 'd', '_', 'n', 'a', 'm', 'e'], .list [['s', 'e', 'a', '_', 'w', 'a', 't', 'e', 'r', '_', 's', 'a', 'l', 'i', 'n', 'i', 't', 'y']]), (['l', 'o', 'n', 'g', '_', 'n', 'a', 'm', 'e'], .list [['S', 'a', 'l', 'i', 'n', 'i', 't', 'y']]), (['u', 'n', 'i', 't', 's'], .list [['1', 'e', '-', '3'], ['P', 'S', 'U']])],
    ['s', 'n']⟩),
  -- sst
  (['s', 's', 't'], ⟨[],
    [(['s', 't', 'a', 'n', 'd', 'a', 'r', 'd', '_', 'n', 'a', 'm', 'e'], .list [['s', 'e', 'a', '_', 's', 'u', 'r', 'f', 'a', 'c', 'e', '_', 't', 'e', 'm', 'p', 'e', 'r', 'a', 't', 'u', 'r', 'e'], ['s', 'u', 'r', 'f', 'a', 'c', 'e', '_', 's', 'e', 'a', '_', 'w', 'a', 't', 'e', 'r', '_', 't', 'e', 'm', 'p', 'e', 'r', 'a', 't', 'u', 'r', 'e']]), (['l', 'o', 'n', 'g', '_', 'n', 'a', 'm', 'e'], .list [['S', 'e', 'a', ' ', 's', 'u', 'r', 'f', 'a', 'c', 'e', ' ', 't', 'e', 'm', 'p', 'e', 'r', 'a', 't', 'u', 'r', 'e']]), (['u', 'n', 'i', 't', 's'], .list [['d', 'e', 'g', 'r', 'e', 'e', 's', '_', 'c', 'e', 'l', 's', 'i', 'u', 's']])],
    ['s', 'n']⟩),
  -- sss
  (['s', 's', 's'], ⟨[],
    [(['s', 't', 'a', 'n', 'd', 'a', 'r', 'd', '_', 'n', 'a', 'm', 'e'], .list [['s', 'e', 'a', '_', 's', 'u', 'r', 'f', 'a', 'c', 'e', '_', 's', 'a', 'l', 'i', 'n', 'i', 't', 'y']]), (['l', 'o', 'n', 'g', '_', 'n', 'a', 'm', 'e'], .list [['S', 'e', 'a', ' ', 's', 'u', 'r', 'f', 'a', 'c', 'e', ' ', 's', 'a', 'l', 'i', 'n', 'i', 't', 'y']]), (['u', 'n', 'i', 't', 's'], .list [['P', 'S', 'U']])],
    ['s', 'n']⟩),
  -- dens
  (['d', 'e', 'n', 's'], ⟨[],
    [(['s', 't', 'a', 'n', 'd', 'a', 'r', 'd', '_', 'n', 'a', 'm', 'e'], .list [['s', 'e', 'a', '_', 'w', 'a', 't', 'e', 'r', '_', 'd', 'e', 'n', 's', 'i', 't', 'y']]), (['l', 'o', 'n', 'g', '_', 'n', 'a', 'm', 'e'], .list [['S', 'e', 'a', ' ', 'w', 'a', 't', 'e', 'r', ' ', 'd', 'e', 'n', 's', 'i', 't', 'y']]), (['u', 'n', 'i', 't', 's'], .list [['k', 'g', ' ', 'm', '-', '3']])],
    ['s', 'n']⟩),
  -- sigmat
  (['s', 'i', 'g', 'm', 'a', 't'], ⟨[],
    [(['s', 't', 'a', 'n', 'd', 'a', 'r', 'd', '_', 'n', 'a', 'm', 'e'], .list [['s', 'e', 'a', '_', 'w', 'a', 't', 'e', 'r', '_', 's', 'i', 'g', 'm', 'a', '_', 't']]), (['l', 'o', 'n', 'g', '_', 'n', 'a', 'm', 'e'], .list [['S', 'e', 'a', ' ', 'w', 'a', 't', 'e', 'r', ' ', 'd', 'e', 'n', 's', 'i', 't', 'y', ' ', 'm', 'i', 'n', 'u', 's', ' ', '1', '0', '0', '0']]), (['u', 'n', 'i', 't', 's'], .list [['k', 'g', ' ', 'm', '-', '3']])],
    ['s', 'n']⟩),
  -- ndens
  (['n', 'd', 'e', 'n', 's'], ⟨[],
    [(['s', 't', 'a', 'n', 'd', 'a', 'r', 'd', '_', 'n', 'a', 'm', 'e'], .list [['s', 'e', 'a', '_', 'w', 'a', 't', 'e', 'r', '_', 'n', 'e', 'u', 't', 'r', 'a', 'l', '_', 'd', 'e', 'n', 's', 'i', 't', 'y']]), (['l', 'o', 'n', 'g', '_', 'n', 'a', 'm', 'e'], .list [['S', 'e', 'a', ' ', 'w', 'a', 't', 'e', 'r', ' ', 'n', 'e', 'u', 't', 'r', 'a', 'l', ' ', 'd', 'e', 'n', 's', 'i', 't', 'y']]), (['u', 'n', 'i', 't', 's'], .list [['k', 'g', ' ', 'm', '-', '3']])],
    ['s', 'n']⟩),
  -- sigmatheta
  (['s', 'i', 'g', 'm', 'a', 't', 'h', 'e', 't', 'a'], ⟨[],
    [(['s', 't', 'a', 'n', 'd', 'a', 'r', 'd', '_', 'n', 'a', 'm', 'e'], .list [['s', 'e', 'a', '_', 'w', 'a', 't', 'e', 'r', '_', 's', 'i', 'g', 'm', 'a', '_', 't', 'h', 'e', 't', 'a']]), (['l', 'o', 'n', 'g', '_', 'n', 'a', 'm', 'e'], .list [['S', 'e', 'a', ' ', 'w', 'a', 't', 'e', 'r', ' ', 'p', 'o', 't', 'e', 'n', 't', 'i', 'a', 'l', ' ', 'd', 'e', 'n', 's', 'i', 't', 'y', ' ', 'm', 'i', 'n', 'u', 's', ' ', '1', '0', '0', '0']]), (['u', 'n', 'i', 't', 's'], .list [['k', 'g', ' ', 'm', '-', '3']])],
    ['s', 'n']⟩),
  -- pdens
  (['p', 'd', 'e', 'n', 's'], ⟨[['s', 'i', 'g', 'm', 'a', '0']],
    [(['s', 't', 'a', 'n', 'd', 'a', 'r', 'd', '_', 'n', 'a', 'm', 'e'], .list [['s', 'e', 'a', '_', 'w', 'a', 't', 'e', 'r', '_', 'p', 'o', 't', 'e', 'n', 't', 'i', 'a', 'l', '_', 'd', 'e', 'n', 's', 'i', 't', 'y']]), (['l', 'o', 'n', 'g', '_', 'n', 'a', 'm', 'e'], .list [['S', 'e', 'a', ' ', 'w', 'a', 't', 'e', 'r', ' ', 'p', 'o', 't', 'e', 'n', 't', 'i', 'a', 'l', ' ', 'd', 'e', 'n', 's', 'i', 't', 'y']]), (['u', 'n', 'i', 't', 's'], .list [['k', 'g', ' ', 'm', '-', '3']])],
    ['s', 'n']⟩),
  -- sigma0
  (['s', 'i', 'g', 'm', 'a', '0'], ⟨[['s', 'i', 'g', 'm', 'a', '0']],
    [(['l', 'o', 'n', 'g', '_', 'n', 'a', 'm', 'e'], .list [['S', 'i', 'g', 'm', 'a', '0'], ['S', 'e', 'a', ' ', 'w', 'a', 't', 'e', 'r', ' ', 'p', 'o', 't', 'e', 'n', 't', 'i', 'a', 'l', ' ', 'd', 'e', 'n', 's', 'i', 't', 'y']]), (['s', 't', 'a', 'n', 'd', 'a', 'r', 'd', '_', 'n', 'a', 'm', 'e'], .list [['s', 'e', 'a', '_', 'w', 'a', 't', 'e', 'r', '_', 'p', 'o', 't', 'e', 'n', 't', 'i', 'a', 'l', '_', 'd', 'e', 'n', 's', 'i', 't', 'y']]), (['u', 'n', 'i', 't', 's'], .list [['k', 'g', ' ', 'm', '-', '3']])],
    ['s', 'n']⟩),
  -- sigma1
  (['s', 'i', 'g', 'm', 'a', '1'], ⟨[],
    [(['s', 't', 'a', 'n', 'd', 'a', 'r', 'd', '_', 'n', 'a', 'm', 'e'], .list [['s', 'e', 'a', '_', 'w', 'a', 't', 'e', 'r', '_', 'p', 'o', 't', 'e', 'n', 't', 'i', 'a', 'l', '_', 'd', 'e', 'n', 's', 'i', 't', 'y']]), (['l', 'o', 'n', 'g', '_', 'n', 'a', 'm', 'e'], .list [['S', 'e', 'a', ' ', 'w', 'a', 't', 'e', 'r', ' ', 'p', 'o', 't', 'e', 'n', 't', 'i', 'a', 'l', ' ', 'd', 'e', 'n', 's', 'i', 't', 'y', ' ', 'w', 'i', 't', 'h', ' ', 'r', 'e', 'f', ' ', 'a', 't', ' ', '1', '0', '0', '0', ' ', 'd', 'b', 'a', 'r']]), (['u', 'n', 'i', 't', 's'], .list [['k', 'g', ' ', 'm', '-', '3']])],
    ['s', 'n']⟩),
  -- sigma2
  (['s', 'i', 'g', 'm', 'a', '2'], ⟨[],
    [(['s', 't', 'a', 'n', 'd', 'a', 'r', 'd', '_', 'n', 'a', 'm', 'e'], .list [['s', 'e', 'a', '_', 'w', 'a', 't', 'e', 'r', '_', 'p', 'o', 't', 'e', 'n', 't', 'i', 'a', 'l', '_', 'd', 'e', 'n', 's', 'i', 't', 'y']]), (['l', 'o', 'n', 'g', '_', 'n', 'a', 'm', 'e'], .list [['S', 'e', 'a', ' ', 'w', 'a', 't', 'e', 'r', ' ', 'p', 'o', 't', 'e', 'n', 't', 'i', 'a', 'l', ' ', 'd', 'e', 'n', 's', 'i', 't', 'y', ' ', 'w', 'i', 't', 'h', ' ', 'r', 'e', 'f', ' ', 'a', 't', ' ', '2', '0', '0', '0', ' ', 'd', 'b', 'a', 'r']]), (['u', 'n', 'i', 't', 's'], .list [['k', 'g', ' ', 'm', '-', '3']])],
    ['s', 'n']⟩),
  -- sigma3
  (['s', 'i', 'g', 'm', 'a', '3'], ⟨[],
    [(['s', 't', 'a', 'n', 'd', 'a', 'r', 'd', '_', 'n', 'a', 'm', 'e'], .list [['s', 'e', 'a', '_', 'w', 'a', 't', 'e', 'r', '_', 'p', 'o', 't', 'e', 'n', 't', 'i', 'a', 'l', '_', 'd', 'e', 'n', 's', 'i', 't', 'y']]), (['l', 'o', 'n', 'g', '_', 'n', 'a', 'm', 'e'], .list [['S', 'e', 'a', ' ', 'w', 'a', 't', 'e', 'r', ' ', 'p', 'o', 't', 'e', 'n', 't', 'i', 'a', 'l', ' ', 'd', 'e', 'n', 's', 'i', 't', 'y', ' ', 'w', 'i', 't', 'h', ' ', 'r', 'e', 'f', ' ', 'a', 't', ' ', '3', '0', '0', '0', ' ', 'd', 'b', 'a', 'r']]), (['u', 'n', 'i', 't', 's'], .list [['k', 'g', ' ', 'm', '-', '3']])],
    ['s', 'n']⟩),
  -- sigma4
  (['s', 'i', 'g', 'm', 'a', '4'], ⟨[],
    [(['s', 't', 'a', 'n', 'd', 'a', 'r', 'd', '_', 'n', 'a', 'm', 'e'], .list [['s', 'e', 'a', '_', 'w', 'a', 't', 'e', 'r', '_', 'p', 'o', 't', 'e', 'n', 't', 'i', 'a', 'l', '_', 'd', 'e', 'n', 's', 'i', 't', 'y']]), (['l', 'o', 'n', 'g', '_', 'n', 'a', 'm', 'e'], .list [['S', 'e', 'a', ' ', 'w', 'a', 't', 'e', 'r', ' ', 'p', 'o', 't', 'e', 'n', 't', 'i', 'a', 'l', ' ', 'd', 'e', 'n', 's', 'i', 't', 'y', ' ', 'w', 'i', 't', 'h', ' ', 'r', 'e', 'f', ' ', 'a', 't', ' ', '4', '0', '0', '0', ' ', 'd', 'b', 'a', 'r']]), (['u', 'n', 'i', 't', 's'], .list [['k', 'g', ' ', 'm', '-', '3']])],
    ['s', 'n']⟩),
  -- ssd
  (['s', 's', 'd'], ⟨[],
    [(['s', 't', 'a', 'n', 'd', 'a', 'r', 'd', '_', 'n', 'a', 'm', 'e'], .list [['s', 'e', 'a', '_', 's', 'u', 'r', 'f', 'a', 'c', 'e', '_', 'd', 'e', 'n', 's', 'i', 't', 'y']]), (['l', 'o', 'n', 'g', '_', 'n', 'a', 'm', 'e'], .list [['S', 'e', 'a', ' ', 's', 'u', 'r', 'f', 'a', 'c', 'e', ' ', 'd', 'e', 'n', 's', 'i', 't', 'y']]), (['u', 'n', 'i', 't', 's'], .list [['P', 'S', 'U']])],
    ['s', 'n']⟩),
  -- conduct
  (['c', 'o', 'n', 'd', 'u', 'c', 't'], ⟨[],
    [(['s', 't', 'a', 'n', 'd', 'a', 'r', 'd', '_', 'n', 'a', 'm', 'e'], .list [['s', 'e', 'a', '_', 'w', 'a', 't', 'e', 'r', '_', 'e', 'l', 'e', 'c', 't', 'r', 'i', 'c', 'a', 'l', '_', 'c', 'o', 'n', 'd', 'u', 'c', 't', 'i', 'v', 'i', 't', 'y']]), (['l', 'o', 'n', 'g', '_', 'n', 'a', 'm', 'e'], .list [['S', 'e', 'a', ' ', 'w', 'a', 't', 'e', 'r', ' ', 'e', 'l', 'e', 'c', 't', 'r', 'i', 'a', 'l', ' ', 'c', 'o', 'n', 'd', 'u', 'c', 't', 'i', 'v', 'i', 't', 'y']]), (['u', 'n', 'i', 't', 's'], .list [['S', ' ', 'm', '-', '1']])],
    ['s', 'n']⟩),
  -- sndspd
  (['s', 'n', 'd', 's', 'p', 'd'], ⟨[],
    [(['s', 't', 'a', 'n', 'd', 'a', 'r', 'd', '_', 'n', 'a', 'm', 'e'], .list [['s', 'p', 'e', 'e', 'd', '_', 'o', 'f', '_', 's', 'o', 'u', 'n', 'd', '_', 'i', 'n', '_', 's', 'e', 'a', '_', 'w', 'a', 't', 'e', 'r']]), (['l', 'o', 'n', 'g', '_', 'n', 'a', 'm', 'e'], .list [['S', 'p', 'e', 'e', 'd', ' ', 'o', 'f', ' ', 's', 'o', 'u', 'n', 'd', ' ', 'i', 'n', ' ', 'w', 'a', 't', 'e', 'r']]), (['u', 'n', 'i', 't', 's'], .list [['m', ' ', 's', '-', '1']])],
    ['s', 'n']⟩),
  -- mld
  (['m', 'l', 'd'], ⟨[],
    [(['s', 't', 'a', 'n', 'd', 'a', 'r', 'd', '_', 'n', 'a', 'm', 'e'], .list [['m', 'i', 'x', 'e', 'd', '_', 'l', 'a', 'y', 'e', 'r', '_', 'd', 'e', 'p', 't', 'h']]), (['l', 'o', 'n', 'g', '_', 'n', 'a', 'm', 'e'], .list [['M', 'i', 'x', 'e', 'd', ' ', 'l', 'a', 'y', 'e', 'r', ' ', 'd', 'e', 'p', 't', 'h']]), (['u', 'n', 'i', 't', 's'], .list [['m']])],
    ['s', 'n']⟩),
  -- ped
  (['p', 'e', 'd'], ⟨[],
    [(['s', 't', 'a', 'n', 'd', 'a', 'r', 'd', '_', 'n', 'a', 'm', 'e'], .list [['p', 'o', 't', 'e', 'n', 't', 'i', 'a', 'l', '_', 'e', 'n', 'e', 'r', 'g', 'y', '_', 'd', 'e', 'f', 'i', 'c', 'i', 't']]), (['l', 'o', 'n', 'g', '_', 'n', 'a', 'm', 'e'], .list [['P', 'o', 't', 'e', 'n', 't', 'i', 'a', 'l', ' ', 'e', 'n', 'e', 'r', 'g', 'y', ' ', 'd', 'e', 'f', 'i', 'c', 'i', 't']]), (['u', 'n', 'i', 't', 's'], .list [['J', ' ', 'm', '-', '2']])],
    ['s', 'n']⟩),
  -- ohc
  (['o', 'h', 'c'], ⟨[],
    [(['s', 't', 'a', 'n', 'd', 'a', 'r', 'd', '_', 'n', 'a', 'm', 'e'], .list [['o', 'c', 'e', 'a', 'n', '_', 'h', 'e', 'a', 't', '_', 'c', 'o', 'n', 't', 'e', 'n', 't']]), (['l', 'o', 'n', 'g', '_', 'n', 'a', 'm', 'e'], .list [['O', 'c', 'e', 'a', 'n', ' ', 'h', 'e', 'a', 't', ' ', 'c', 'o', 'n', 't', 'e', 'n', 't']]), (['u', 'n', 'i', 't', 's'], .list [['J']])],
    ['s', 'n']⟩),
  -- osc
  (['o', 's', 'c'], ⟨[],
    [(['s', 't', 'a', 'n', 'd', 'a', 'r', 'd', '_', 'n', 'a', 'm', 'e'], .list [['o', 'c', 'e', 'a', 'n', '_', 's', 'a', 'l', 't', '_', 'c', 'o', 'n', 't', 'e', 'n', 't']]), (['l', 'o', 'n', 'g', '_', 'n', 'a', 'm', 'e'], .list [['O', 'c', 'e', 'a', 'n', ' ', 's', 'a', 'l', 't', ' ', 'c', 'o', 'n', 't', 'e', 'n', 't']]), (['u', 'n', 'i', 't', 's'], .list [['k', 'g']])],
    ['s', 'n']⟩),
  -- cp
  (['c', 'p'], ⟨[],
    [(['s', 't', 'a', 'n', 'd', 'a', 'r', 'd', '_', 'n', 'a', 'm', 'e'], .list [['s', 'p', 'e', 'c', 'i', 'f', 'i', 'c', '_', 'h', 'e', 'a', 't', '_', 'c', 'a', 'p', 'a', 'c', 'i', 't', 'y']]), (['l', 'o', 'n', 'g', '_', 'n', 'a', 'm', 'e'], .list [['S', 'p', 'e', 'c', 'i', 'f', 'i', 'c', ' ', 'h', 'e', 'a', 't', ' ', 'c', 'a', 'p', 'a', 'c', 'i', 't', 'y']]), (['u', 'n', 'i', 't', 's'], .list [['J', ' ', 'K', '-', '1']])],
    ['s', 'n']⟩),
  -- ssh
  (['s', 's', 'h'], ⟨[['x', 'e'], ['w', 'l', 'v']],
    [(['s', 't', 'a', 'n', 'd', 'a', 'r', 'd', '_', 'n', 'a', 'm', 'e'], .list [['s', 'e', 'a', '_', 's', 'u', 'r', 'f', 'a', 'c', 'e', '_', 'h', 'e', 'i', 'g', 'h', 't'], ['s', 'e', 'a', '_', 's', 'u', 'r', 'f', 'a', 'c', 'e', '_', 'h', 'e', 'i', 'g', 'h', 't', '_', 'a', 'b', 'o', 'v', 'e', '_', 's', 'e', 'a', '_', 'l', 'e', 'v', 'e', 'l'], ['s', 'e', 'a', '_', 's', 'u', 'r', 'f', 'a', 'c', 'e', '_', 'h', 'e', 'i', 'g', 'h', 't', '_', 'a', 'b', 'o', 'v', 'e', '_', 'g', 'e', 'o', 'i', 'd']]), (['l', 'o', 'n', 'g', '_', 'n', 'a', 'm', 'e'], .list [['S', 'e', 'a', ' ', 's', 'u', 'r', 'f', 'a', 'c', 'e', ' ', 'h', 'e', 'i', 'g', 'h', 't']]), (['u', 'n', 'i', 't', 's'], .list [['m']])],
    ['s', 'n']⟩),
  -- u
  (['u'], ⟨[['u', 'z'], ['u', '3', 'd']],
    [(['s', 't', 'a', 'n', 'd', 'a', 'r', 'd', '_', 'n', 'a', 'm', 'e'], .list [['s', 'e', 'a', '_', 'w', 'a', 't', 'e', 'r', '_', 'x', '_', 'v', 'e', 'l', 'o', 'c', 'i', 't', 'y']]), (['l', 'o', 'n', 'g', '_', 'n', 'a', 'm', 'e'], .list [['S', 'e', 'a', ' ', 'w', 'a', 't', 'e', 'r', ' ', 'v', 'e', 'l', 'o', 'c', 'i', 't', 'y', ' ', 'a', 'l', 'o', 'n', 'g', ' ', 'X']]), (['u', 'n', 'i', 't', 's'], .list [['m', ' ', 's', '-', '1']])],
    ['s', 'n']⟩),
  -- v
  (['v'], ⟨[['v', 'z'], ['v', '3', 'd']],
    [(['s', 't', 'a', 'n', 'd', 'a', 'r', 'd', '_', 'n', 'a', 'm', 'e'], .list [['s', 'e', 'a', '_', 'w', 'a', 't', 'e', 'r', '_', 'y', '_', 'v', 'e', 'l', 'o', 'c', 'i', 't', 'y']]), (['l', 'o', 'n', 'g', '_', 'n', 'a', 'm', 'e'], .list [['S', 'e', 'a', ' ', 'w', 'a', 't', 'e', 'r', ' ', 'v', 'e', 'l', 'o', 'c', 'i', 't', 'y', ' ', 'a', 'l', 'o', 'n', 'g', ' ', 'Y']]), (['u', 'n', 'i', 't', 's'], .list [['m', ' ', 's', '-', '1']])],
    ['s', 'n']⟩),
  -- w
  (['w'], ⟨[['w', 'z'], ['w', '3', 'd']],
    [(['s', 't', 'a', 'n', 'd', 'a', 'r', 'd', '_', 'n', 'a', 'm', 'e'], .list [['s', 'e', 'a', '_', 'w', 'a', 't', 'e', 'r', '_', 'z', '_', 'v', 'e', 'l', 'o', 'c', 'i', 't', 'y', '_', 'a', 't', '_', 'w', '_', 'l', 'o', 'c', 'a', 't', 'i', 'o', 'n'], ['s', 'e', 'a', '_', 'w', 'a', 't', 'e', 'r', '_', 'z', '_', 'v', 'e', 'l', 'o', 'c', 'i', 't', 'y']]), (['l', 'o', 'n', 'g', '_', 'n', 'a', 'm', 'e'], .list [['S', 'e', 'a', ' ', 'w', 'a', 't', 'e', 'r', ' ', 'v', 'e', 'l', 'o', 'c', 'i', 't', 'y', ' ', 'a', 'l', 'o', 'n', 'g', ' ', 'Z', ' ', 'a', 't', ' ', 'W', ' ', 'l', 'o', 'c', 'a', 't', 'i', 'o', 'n']]), (['u', 'n', 'i', 't', 's'], .list [['m', ' ', 's', '-', '1']])],
    ['s', 'n']⟩),
  -- u3d
  (['u', '3', 'd'], ⟨[['u', 'z']],
    [(['s', 't', 'a', 'n', 'd', 'a', 'r', 'd', '_', 'n', 'a', 'm', 'e'], .list [['s', 'e', 'a', '_', 'w', 'a', 't', 'e', 'r', '_', 'x', '_', 'v', 'e', 'l', 'o', 'c', 'i', 't', 'y']]), (['l', 'o', 'n', 'g', '_', 'n', 'a', 'm', 'e'], .list [['S', 'e', 'a', ' ', 'w', 'a', 't', 'e', 'r', ' ', 'v', 'e', 'l', 'o', 'c', 'i', 't', 'y', ' ', 'a', 'l', 'o', 'n', 'g', ' ', 'X']]), (['u', 'n', 'i', 't', 's'], .list [['m', ' ', 's', '-', '1']])],
    ['s', 'n']⟩),
  -- v3d
  (['v', '3', 'd'], ⟨[['v', 'z']],
    [(['s', 't', 'a', 'n', 'd', 'a', 'r', 'd', '_', 'n', 'a', 'm', 'e'], .list [['s', 'e', 'a', '_', 'w', 'a', 't', 'e', 'r', '_', 'y', '_', 'v', 'e', 'l', 'o', 'c', 'i', 't', 'y']]), (['l', 'o', 'n', 'g', '_', 'n', 'a', 'm', 'e'], .list [['S', 'e', 'a', ' ', 'w', 'a', 't', 'e', 'r', ' ', 'v', 'e', 'l', 'o', 'c', 'i', 't', 'y', ' ', 'a', 'l', 'o', 'n', 'g', ' ', 'Y']]), (['u', 'n', 'i', 't', 's'], .list [['m', ' ', 's', '-', '1']])],
    ['s', 'n']⟩),
  -- w3d
  (['w', '3', 'd'], ⟨[['w', 'z']],
    [(['s', 't', 'a', 'n', 'd', 'a', 'r', 'd', '_', 'n', 'a', 'm', 'e'], .list [['s', 'e', 'a', '_', 'w', 'a', 't', 'e', 'r', '_', 'z', '_', 'v', 'e', 'l', 'o', 'c', 'i', 't', 'y', '_', 'a', 't', '_', 'w', '_', 'l', 'o', 'c', 'a', 't', 'i', 'o', 'n'], ['s', 'e', 'a', '_', 'w', 'a', 't', 'e', 'r', '_', 'z', '_', 'v', 'e', 'l', 'o', 'c', 'i', 't', 'y']]), (['l', 'o', 'n', 'g', '_', 'n', 'a', 'm', 'e'], .list [['S', 'e', 'a', ' ', 'w', 'a', 't', 'e', 'r', ' ', 'v', 'e', 'l', 'o', 'c', 'i', 't', 'y', ' ', 'a', 'l', 'o', 'n', 'g', ' ', 'Z', ' ', 'a', 't', ' ', 'W', ' ', 'l', 'o', 'c', 'a', 't', 'i', 'o', 'n']]), (['u', 'n', 'i', 't', 's'], .list [['m', ' ', 's', '-', '1']])],
    ['s', 'n']⟩),
  -- ubt
  (['u', 'b', 't'], ⟨[['u', '2', 'd'], ['u']],
    [(['s', 't', 'a', 'n', 'd', 'a', 'r', 'd', '_', 'n', 'a', 'm', 'e'], .list [['b', 'a', 'r', 'o', 't', 'r', 'o', 'p', 'i', 'c', '_', 's', 'e', 'a', '_', 'w', 'a', 't', 'e', 'r', '_', 'x', '_', 'v', 'e', 'l', 'o', 'c', 'i', 't', 'y']]), (['l', 'o', 'n', 'g', '_', 'n', 'a', 'm', 'e'], .list [['S', 'e', 'a', ' ', 'w', 'a', 't', 'e', 'r', ' ', 'b', 'a', 'r', 'o', 't', 'r', 'o', 'p', 'i', 'c', ' ', 'v', 'e', 'l', 'o', 'c', 'i', 't', 'y', ' ', 'a', 'l', 'o', 'n', 'g', ' ', 'X']]), (['u', 'n', 'i', 't', 's'], .list [['m', ' ', 's', '-', '1']])],
    ['s', 'n']⟩),
  -- vbt
  (['v', 'b', 't'], ⟨[['v', '2', 'd'], ['v']],
    [(['s', 't', 'a', 'n', 'd', 'a', 'r', 'd', '_', 'n', 'a', 'm', 'e'], .list [['b', 'a', 'r', 'o', 't', 'r', 'o', 'p', 'i', 'c', '_', 's', 'e', 'a', '_', 'w', 'a', 't', 'e', 'r', '_', 'y', '_', 'v', 'e', 'l', 'o', 'c', 'i', 't', 'y']]), (['l', 'o', 'n', 'g', '_', 'n', 'a', 'm', 'e'], .list [['S', 'e', 'a', ' ', 'w', 'a', 't', 'e', 'r', ' ', 'b', 'a', 'r', 'o', 't', 'r', 'o', 'p', 'i', 'c', ' ', 'v', 'e', 'l', 'o', 'c', 'i', 't', 'y', ' ', 'a', 'l', 'o', 'n', 'g', ' ', 'Y']]), (['u', 'n', 'i', 't', 's'], .list [['m', ' ', 's', '-', '1']])],
    ['s', 'n']⟩),
  -- ubc
  (['u', 'b', 'c'], ⟨[['u']],
    [(['s', 't', 'a', 'n', 'd', 'a', 'r', 'd', '_', 'n', 'a', 'm', 'e'], .list [['b', 'a', 'r', 'o', 'c', 'l', 'i', 'n', 'i', 'c', '_', 's', 'e', 'a', '_', 'w', 'a', 't', 'e', 'r', '_', 'x', '_', 'v', 'e', 'l', 'o', 'c', 'i', 't', 'y']]), (['l', 'o', 'n', 'g', '_', 'n', 'a', 'm', 'e'], .list [['S', 'e', 'a', ' ', 'w', 'a', 't', 'e', 'r', ' ', 'b', 'a', 'r', 'o', 'c', 'l', 'i', 'n', 'i', 'c', ' ', 'v', 'e', 'l', 'o', 'c', 'i', 't', 'y', ' ', 'a', 'l', 'o', 'n', 'g', ' ', 'X']]), (['u', 'n', 'i', 't', 's'], .list [['m', ' ', 's', '-', '1']])],
    ['s', 'n']⟩),
  -- vbc
  (['v', 'b', 'c'], ⟨[['v']],
    [(['s', 't', 'a', 'n', 'd', 'a', 'r', 'd', '_', 'n', 'a', 'm', 'e'], .list [['b', 'a', 'r', 'o', 'c', 'l', 'i', 'n', 'i', 'c', '_', 's', 'e', 'a', '_', 'w', 'a', 't', 'e', 'r', '_', 'y', '_', 'v', 'e', 'l', 'o', 'c', 'i', 't', 'y']]), (['l', 'o', 'n', 'g', '_', 'n', 'a', 'm', 'e'], .list [['S', 'e', 'a', ' ', 'w', 'a', 't', 'e', 'r', ' ', 'b', 'a', 'r', 'o', 'c', 'l', 'i', 'n', 'i', 'c', ' ', 'v', 'e', 'l', 'o', 'c', 'i', 't', 'y', ' ', 'a', 'l', 'o', 'n', 'g', ' ', 'Y']]), (['u', 'n', 'i', 't', 's'], .list [['m', ' ', 's', '-', '1']])],
    ['s', 'n']⟩),
  -- usurf
  (['u', 's', 'u', 'r', 'f'], ⟨[],
    [(['s', 't', 'a', 'n', 'd', 'a', 'r', 'd', '_', 'n', 'a', 'm', 'e'], .list [['s', 'e', 'a', '_', 's', 'u', 'r', 'f', 'a', 'c', 'e', '_', 'x', '_', 'v', 'e', 'l', 'o', 'c', 'i', 't', 'y'], ['e', 'a', 's', 't', 'w', 'a', 'r', 'd', '_', 's', 'e', 'a', '_', 'w', 'a', 't', 'e', 'r', '_', 'v', 'e', 'l', 'o', 'c', 'i', 't', 'y']]), (['l', 'o', 'n', 'g', '_', 'n', 'a', 'm', 'e'], .list [['S', 'e', 'a', ' ', 's', 'u', 'r', 'f', 'a', 'c', 'e', ' ', 'v', 'e', 'l', 'o', 'c', 'i', 't', 'y', ' ', 'a', 'l', 'o', 'n', 'g', ' ', 'X'], ['E', 'a', 's', 't', 'w', 'a', 'r', 'd', ' ', 's', 'u', 'r', 'f', 'a', 'c', 'e', ' ', 'c', 'u', 'r', 'r', 'e', 'n', 't'], ['E', 'a', 's', 't', 'w', 'a', 'r', 'd', ' ', 'c', 'u', 'r', 'r', 'e', 'n', 't']]), (['u', 'n', 'i', 't', 's'], .list [['m', ' ', 's', '-', '1']])],
    ['s', 'n']⟩),
  -- vsurf
  (['v', 's', 'u', 'r', 'f'], ⟨[],
    [(['s', 't', 'a', 'n', 'd', 'a', 'r', 'd', '_', 'n', 'a', 'm', 'e'], .list [['s', 'e', 'a', '_', 's', 'u', 'r', 'f', 'a', 'c', 'e', '_', 'y', '_', 'v', 'e', 'l', 'o', 'c', 'i', 't', 'y'], ['n', 'o', 'r', 't', 'h', 'w', 'a', 'r', 'd', '_', 's', 'e', 'a', '_', 'w', 'a', 't', 'e', 'r', '_', 'v', 'e', 'l', 'o', 'c', 'i', 't', 'y']]), (['l', 'o', 'n', 'g', '_', 'n', 'a', 'm', 'e'], .list [['S', 'e', 'a', ' ', 's', 'u', 'r', 'f', 'a', 'c', 'e', ' ', 'v', 'e', 'l', 'o', 'c', 'i', 't', 'y', ' ', 'a', 'l', 'o', 'n', 'g', ' ', 'Y'], ['N', 'o', 'r', 't', 'h', 'w', 'a', 'r', 'd', ' ', 's', 'u', 'r', 'f', 'a', 'c', 'e', ' ', 'c', 'u', 'r', 'r', 'e', 'n', 't'], ['N', 'o', 'r', 't', 'h', 'w', 'a', 'r', 'd', ' ', 'c', 'u', 'r', 'r', 'e', 'n', 't']]), (['u', 'n', 'i', 't', 's'], .list [['m', ' ', 's', '-', '1']])],
    ['s', 'n']⟩),
  -- ugbt
  (['u', 'g', 'b', 't'], ⟨[],
    [(['s', 't', 'a', 'n', 'd', 'a', 'r', 'd', '_', 'n', 'a', 'm', 'e'], .list [['b', 'a', 'r', 'o', 't', 'r', 'o', 'p', 'i', 'c', '_', 's', 'e', 'a', '_', 'w', 'a', 't', 'e', 'r', '_', 'x', '_', 'g', 'e', 'o', 's', 't', 'r', 'o', 'p', 'h', 'i', 'c', '_', 'v', 'e', 'l', 'o', 'c', 'i', 't', 'y'], ['e', 'a', 's', 't', 'w', 'a', 'r', 'd', '_', 'g', 'e', 'o', 's', 't', 'r', 'o', 'p', 'h', 'i', 'c', '_', 'c', 'u', 'r', 'r', 'e', 'n', 't', '_', 'v', 'e', 'l', 'o', 'c', 'i', 't', 'y']]), (['l', 'o', 'n', 'g', '_', 'n', 'a', 'm', 'e'], .list [['S', 'e', 'a', ' ', 'w', 'a', 't', 'e', 'r', ' ', 'b', 'a', 'r', 'o', 't', 'r', 'o', 'p', 'i', 'c', ' ', 'g', 'e', 'o', 's', 't', 'r', 'o', 'p', 'h', 'i', 'c', ' ', 'v', 'e', 'l', 'o', 'c', 'i', 't', 'y', ' ', 'a', 'l', 'o', 'n', 'g', ' ', 'X']]), (['u', 'n', 'i', 't', 's'], .list [['m', ' ', 's', '-', '1']])],
    ['s', 'n']⟩),
  -- vgbt
  (['v', 'g', 'b', 't'], ⟨[],
    [(['s', 't', 'a', 'n', 'd', 'a', 'r', 'd', '_', 'n', 'a', 'm', 'e'], .list [['b', 'a', 'r', 'o', 't', 'r', 'o', 'p', 'i', 'c', '_', 's', 'e', 'a', '_', 'w', 'a', 't', 'e', 'r', '_', 'y', '_', 'g', 'e', 'o', 's', 't', 'r', 'o', 'p', 'h', 'i', 'c', '_', 'v', 'e', 'l', 'o', 'c', 'i', 't', 'y'], ['n', 'o', 'r', 't', 'h', 'w', 'a', 'r', 'd', '_', 'g', 'e', 'o', 's', 't', 'r', 'o', 'p', 'h', 'i', 'c', '_', 'c', 'u', 'r', 'r', 'e', 'n', 't', '_', 'v', 'e', 'l', 'o', 'c', 'i', 't', 'y']]), (['l', 'o', 'n', 'g', '_', 'n', 'a', 'm', 'e'], .list [['S', 'e', 'a', ' ', 'w', 'a', 't', 'e', 'r', ' ', 'b', 'a', 'r', 'o', 't', 'r', 'o', 'p', 'i', 'c', ' ', 'g', 'e', 'o', 's', 't', 'r', 'o', 'p', 'h', 'i', 'c', ' ', 'v', 'e', 'l', 'o', 'c', 'i', 't', 'y', ' ', 'a', 'l', 'o', 'n', 'g', ' ', 'Y']]), (['u', 'n', 'i', 't', 's'], .list [['m', ' ', 's', '-', '1']])],
    ['s', 'n']⟩),
  -- cspd
  (['c', 's', 'p', 'd'], ⟨[],
    [(['s', 't', 'a', 'n', 'd', 'a', 'r', 'd', '_', 'n', 'a', 'm', 'e'], .list [['s', 'e', 'a', '_', 'w', 'a', 't', 'e', 'r', '_', 's', 'p', 'e', 'e', 'd']]), (['l', 'o', 'n', 'g', '_', 'n', 'a', 'm', 'e'], .list [['S', 'e', 'a', ' ', 'w', 'a', 't', 'e', 'r', ' ', 's', 'p', 'e', 'e', 'd']]), (['u', 'n', 'i', 't', 's'], .list [['m', ' ', 's', '-', '1']])],
    ['s', 'n']⟩),
  -- speed
  (['s', 'p', 'e', 'e', 'd'], ⟨[],
    [(['l', 'o', 'n', 'g', '_', 'n', 'a', 'm', 'e'], .list [['S', 'p', 'e', 'e', 'd'], ['S', 'e', 'a', ' ', 'w', 'a', 't', 'e', 'r', ' ', 's', 'p', 'e', 'e', 'd']]), (['s', 't', 'a', 'n', 'd', 'a', 'r', 'd', '_', 'n', 'a', 'm', 'e'], .list [['s', 'e', 'a', '_', 'w', 'a', 't', 'e', 'r', '_', 's', 'p', 'e', 'e', 'd']]), (['u', 'n', 'i', 't', 's'], .list [['m', ' ', 's', '-', '1']])],
    ['s', 'n']⟩),
  -- cdir
  (['c', 'd', 'i', 'r'], ⟨[],
    [(['s', 't', 'a', 'n', 'd', 'a', 'r', 'd', '_', 'n', 'a', 'm', 'e'], .list [['d', 'i', 'r', 'e', 'c', 't', 'i', 'o', 'n', '_', 'o', 'f', '_', 's', 'e', 'a', '_', 'w', 'a', 't', 'e', 'r', '_', 'v', 'e', 'l', 'o', 'c', 'i', 't', 'y']]), (['l', 'o', 'n', 'g', '_', 'n', 'a', 'm', 'e'], .list [['D', 'i', 'r', 'e', 'c', 't', 'i', 'o', 'n', ' ', 'o', 'f', ' ', 's', 'e', 'a', ' ', 'w', 'a', 't', 'e', 'r', ' ', 'v', 'e', 'l', 'o', 'c', 'i', 't', 'y']]), (['u', 'n', 'i', 't', 's'], .list [['d', 'e', 'g', 'r', 'e', 'e', 's']])],
    ['s', 'n']⟩),
  -- ke
  (['k', 'e'], ⟨[],
    [(['s', 't', 'a', 'n', 'd', 'a', 'r', 'd', '_', 'n', 'a', 'm', 'e', 's'], .text ['k', 'i', 'n', 'e', 't', 'i', 'c', '_', 'e', 'n', 'e', 'r', 'g', 'y']), (['l', 'o', 'n', 'g', '_', 'n', 'a', 'm', 'e'], .list [['K', 'i', 'n', 'e', 't', 'i', 'c', ' ', 'e', 'n', 'e', 'r', 'g', 'y']]), (['u', 'n', 'i', 't', 's'], .list [['m', '2', ' ', 's', '-', '2']]), (['s', 't', 'a', 'n', 'd', 'a', 'r', 'd', '_', 'n', 'a', 'm', 'e'], .list [])],
    ['s', 'n']⟩),
  -- eke
  (['e', 'k', 'e'], ⟨[],
    [(['s', 't', 'a', 'n', 'd', 'a', 'r', 'd', '_', 'n', 'a', 'm', 'e', 's'], .text ['e', 'd', 'd', 'y', '_', 'k', 'i', 'n', 'e', 't', 'i', 'c', '_', 'e', 'n', 'e', 'r', 'g', 'y']), (['l', 'o', 'n', 'g', '_', 'n', 'a', 'm', 'e'], .list [['E', 'd', 'd', 'y', ' ', 'k', 'i', 'n', 'e', 't', 'i', 'c', ' ', 'e', 'n', 'e', 'r', 'g', 'y']]), (['u', 'n', 'i', 't', 's'], .list [['m', '2', ' ', 's', '-', '2']]), (['s', 't', 'a', 'n', 'd', 'a', 'r', 'd', '_', 'n', 'a', 'm', 'e'], .list [])],
    ['s', 'n']⟩),
  -- tke
  (['t', 'k', 'e'], ⟨[],
    [(['s', 't', 'a', 'n', 'd', 'a', 'r', 'd', '_', 'n', 'a', 'm', 'e', 's'], .text ['t', 'u', 'r', 'b', 'u', 'l', 'e', 'n', 't', '_', 'k', 'i', 'n', 'e', 't', 'i', 'c', '_', 'e', 'n', 'e', 'r', 'g', 'y']), (['l', 'o', 'n', 'g', '_', 'n', 'a', 'm', 'e'], .list [['T', 'u', 'r', 'b', 'u', 'l', 'e', 'n', 't', ' ', 'k', 'i', 'n', 'e', 't', 'i', 'c', ' ', 'e', 'n', 'e', 'r', 'g', 'y']]), (['u', 'n', 'i', 't', 's'], .list [['m', '2', ' ', 's', '-', '2']]), (['s', 't', 'a', 'n', 'd', 'a', 'r', 'd', '_', 'n', 'a', 'm', 'e'], .list [])],
    ['s', 'n']⟩),
  -- mke
  (['m', 'k', 'e'], ⟨[],
    [(['l', 'o', 'n', 'g', '_', 'n', 'a', 'm', 'e'], .list [['M', 'k', 'e']]), (['s', 't', 'a', 'n', 'd', 'a', 'r', 'd', '_', 'n', 'a', 'm', 'e'], .list []), (['u', 'n', 'i', 't', 's'], .list [])],
    ['s', 'n']⟩),
  -- kz
  (['k', 'z'], ⟨[['k', 'z'], ['k', 'z', 'm']],
    [(['s', 't', 'a', 'n', 'd', 'a', 'r', 'd', '_', 'n', 'a', 'm', 'e'], .list [['a', 'v', 'e', 'r', 'a', 'g', 'e', '_', 'o', 'c', 'e', 'a', 'n', '_', 'v', 'e', 'r', 't', 'i', 'c', 'a', 'l', '_', 't', 'r', 'a', 'c', 'e', 'r', '_', 'd', 'i', 'f', 'f', 'u', 's', 'i', 'v', 'i', 't', 'y']]), (['l', 'o', 'n', 'g', '_', 'n', 'a', 'm', 'e'], .list [['V', 'e', 'r', 't', 'i', 'c', 'a', 'l', ' ', 'd', 'i', 'f', 'f', 'u', 's', 'i', 'v', 'i', 't', 'y']]), (['u', 'n', 'i', 't', 's'], .list [['m', '2', ' ', 's', '-', '1']])],
    ['s', 'n']⟩),
  -- vaisa
  (['v', 'a', 'i', 's', 'a'], ⟨[['v', 'a', 'i', 's', 'a', 'l', 'a']],
    [(['s', 't', 'a', 'n', 'd', 'a', 'r', 'd', '_', 'n', 'a', 'm', 'e'], .list [['b', 'r', 'u', 'n', 't', '_', 'v', 'a', 'i', 's', 'a', 'l', 'a', '_', 'f', 'r', 'e', 'q', 'u', 'e', 'n', 'c', 'y', '_', 'i', 'n', '_', 's', 'e', 'a', '_', 'w', 'a', 't', 'e', 'r'], ['b', 'r', 'u', 'n', 't', '_', 'v', 'a', 'i', 's', 'a', 'l', 'a', '_', 'f', 'r', 'e', 'q', 'u', 'e', 'n', 'c', 'y']]), (['l', 'o', 'n', 'g', '_', 'n', 'a', 'm', 'e'], .list [['B', 'r', 'u', 'n', 't', ' ', 'V', 'a', 'i', 's', 'a', 'l', 'a', ' ', 'f', 'r', 'e', 'q', 'u', 'e', 'n', 'c', 'y']]), (['u', 'n', 'i', 't', 's'], .list [['s', '-', '1']])],
    ['s', 'n']⟩),
  -- bathy
  (['b', 'a', 't', 'h', 'y'], ⟨[['h', '0'], ['d', 'p', 't']],
    [(['s', 't', 'a', 'n', 'd', 'a', 'r', 'd', '_', 'n', 'a', 'm', 'e'], .list [['m', 'o', 'd', 'e', 'l', '_', 's', 'e', 'a', '_', 'f', 'l', 'o', 'o', 'r', '_', 'd', 'e', 'p', 't', 'h', '_', 'b', 'e', 'l', 'o', 'w', '_', 's', 'e', 'a', '_', 'l', 'e', 'v', 'e', 'l'], ['m', 'o', 'd', 'e', 'l', '_', 's', 'e', 'a', '_', 'f', 'l', 'o', 'o', 'r', '_', 'd', 'e', 'p', 't', 'h', '_', 'b', 'e', 'l', 'o', 'w', '_', 'g', 'e', 'o', 'i', 'd'], ['s', 'e', 'a', '_', 'f', 'l', 'o', 'o', 'r', '_', 'd', 'e', 'p', 't', 'h', '_', 'b', 'e', 'l', 'o', 'w', '_', 'g', 'e', 'o', 'i', 'd']]), (['l', 'o', 'n', 'g', '_', 'n', 'a', 'm', 'e'], .list [['B', 'a', 't', 'h', 'y', 'm', 'e', 't', 'r', 'y']]), (['u', 'n', 'i', 't', 's'], .list [['m']])],
    ['s', 'n']⟩),
  -- meanlev
  (['m', 'e', 'a', 'n', 'l', 'e', 'v'], ⟨[['n', 'i', 'v', '_', 'm', 'o', 'y']],
    [(['s', 't', 'a', 'n', 'd', 'a', 'r', 'd', '_', 'n', 'a', 'm', 'e'], .list [['m', 'e', 'a', 'n', '_', 's', 'e', 'a', '_', 'l', 'e', 'v', 'e', 'l', '_', 'a', 'b', 'o', 'v', 'e', '_', 's', 'e', 'a', '_', 'f', 'l', 'o', 'o', 'r', '_', 'd', 'e', 'p', 't', 'h', '_', 'a', 't', '_', 'l', 'o', 'w', 'e', 's', 't', '_', 'a', 's', 't', 'r', 'o', 'n', 'o', 'm', 'i', 'c', 'a', 'l', '_', 't', 'i', 'd', 'e'], ['m', 'e', 'a', 'n', '_', 's', 'e', 'a', '_', 'l', 'e', 'v', 'e', 'l']]), (['l', 'o', 'n', 'g', '_', 'n', 'a', 'm', 'e'], .list [['M', 'e', 'a', 'n', ' ', 'S', 'e', 'a', ' ', 'L', 'e', 'v', 'e', 'l']]), (['u', 'n', 'i', 't', 's'], .list [['m']])],
    ['s', 'n']⟩),
  -- depth
  (['d', 'e', 'p', 't', 'h'], ⟨[['d', 'e', 'p']],
    [(['s', 't', 'a', 'n', 'd', 'a', 'r', 'd', '_', 'n', 'a', 'm', 'e'], .list [['o', 'c', 'e', 'a', 'n', '_', 'l', 'a', 'y', 'e', 'r', '_', 'd', 'e', 'p', 't', 'h']]), (['l', 'o', 'n', 'g', '_', 'n', 'a', 'm', 'e'], .list [['D', 'e', 'p', 't', 'h']]), (['u', 'n', 'i', 't', 's'], .list [['m']])],
    ['s', 'n']⟩),
  -- altitude
  (['a', 'l', 't', 'i', 't', 'u', 'd', 'e'], ⟨[['a', 'l', 't', 'i', 't', 'u', 'd', 'e', 't'], ['a', 'l', 't', 'i', 't', 'u', 'd', 'e', 'u'], ['a', 'l', 't', 'i', 't', 'u', 'd', 'e', 'v']],
    [(['s', 't', 'a', 'n', 'd', 'a', 'r', 'd', '_', 'n', 'a', 'm', 'e'], .list [['a', 't', 'm', 'o', 's', 'p', 'h', 'e', 'r', 'e', '_', 'l', 'a', 'y', 'e', 'r', '_', 'a', 'l', 't', 'i', 't', 'u', 'd', 'e']]), (['l', 'o', 'n', 'g', '_', 'n', 'a', 'm', 'e'], .list [['A', 'l', 't', 'i', 't', 'u', 'd', 'e']]), (['u', 'n', 'i', 't', 's'], .list [['m']])],
    ['s', 'n']⟩),
  -- dx
  (['d', 'x'], ⟨[],
    [(['s', 't', 'a', 'n', 'd', 'a', 'r', 'd', '_', 'n', 'a', 'm', 'e'], .list [['c', 'e', 'l', 'l', '_', 'x', '_', 's', 'i', 'z', 'e']]), (['l', 'o', 'n', 'g', '_', 'n', 'a', 'm', 'e'], .list [['M', 'e', 's', 'h', ' ', 's', 'i', 'z', 'e', ' ', 'a', 'l', 'o', 'n', 'g', ' ', 'x']]), (['u', 'n', 'i', 't', 's'], .list [['m']])],
    ['s', 'n']⟩),
  -- dy
  (['d', 'y'], ⟨[],
    [(['s', 't', 'a', 'n', 'd', 'a', 'r', 'd', '_', 'n', 'a', 'm', 'e'], .list [['c', 'e', 'l', 'l', '_', 'y', '_', 's', 'i', 'z', 'e']]), (['l', 'o', 'n', 'g', '_', 'n', 'a', 'm', 'e'], .list [['M', 'e', 's', 'h', ' ', 's', 'i', 'z', 'e', ' ', 'a', 'l', 'o', 'n', 'g', ' ', 'y']]), (['u', 'n', 'i', 't', 's'], .list [['m']])],
    ['s', 'n']⟩),
  -- ex
  (['e', 'x'], ⟨[],
    [(['s', 't', 'a', 'n', 'd', 'a', 'r', 'd', '_', 'n', 'a', 'm', 'e'], .list [['i', 'n', 'v', 'e', 'r', 's', 'e', '_', 'o', 'f', '_', 'c', 'e', 'l', 'l', '_', 'x', '_', 's', 'i', 'z', 'e']]), (['l', 'o', 'n', 'g', '_', 'n', 'a', 'm', 'e'], .list [['I', 'n', 'v', 'e', 'r', 's', 'e', ' ', 'o', 'f', ' ', 'm', 'e', 's', 'h', ' ', 's', 'i', 'z', 'e', ' ', 'a', 'l', 'o', 'n', 'g', ' ', 'x']]), (['u', 'n', 'i', 't', 's'], .list [['m', '-', '1']])],
    ['s', 'n']⟩),
  -- ey
  (['e', 'y'], ⟨[],
    [(['s', 't', 'a', 'n', 'd', 'a', 'r', 'd', '_', 'n', 'a', 'm', 'e'], .list [['i', 'n', 'v', 'e', 'r', 's', 'e', '_', 'o', 'f', '_', 'c', 'e', 'l', 'l', '_', 'y', '_', 's', 'i', 'z', 'e']]), (['l', 'o', 'n', 'g', '_', 'n', 'a', 'm', 'e'], .list [['I', 'n', 'v', 'e', 'r', 's', 'e', ' ', 'o', 'f', ' ', 'm', 'e', 's', 'h', ' ', 's', 'i', 'z', 'e', ' ', 'a', 'l', 'o', 'n', 'g', ' ', 'y']]), (['u', 'n', 'i', 't', 's'], .list [['m', '-', '1']])],
    ['s', 'n']⟩),
  -- dz
  (['d', 'z'], ⟨[],
    [(['s', 't', 'a', 'n', 'd', 'a', 'r', 'd', '_', 'n', 'a', 'm', 'e'], .list [['o', 'c', 'e', 'a', 'n', '_', 'l', 'a', 'y', 'e', 'r', '_', 't', 'h', 'i', 'c', 'k', 'n', 'e', 's', 's']]), (['l', 'o', 'n', 'g', '_', 'n', 'a', 'm', 'e'], .list [['O', 'c', 'e', 'a', 'n', ' ', 'l', 'a', 'y', 'e', 'r', ' ', 't', 'h', 'i', 'c', 'k', 'n', 'e', 's', 's']]), (['u', 'n', 'i', 't', 's'], .list [['m']])],
    ['s', 'n']⟩),
  -- dlon
  (['d', 'l', 'o', 'n'], ⟨[],
    [(['s', 't', 'a', 'n', 'd', 'a', 'r', 'd', '_', 'n', 'a', 'm', 'e'], .list [['c', 'e', 'l', 'l', '_', 'x', '_', 's', 'i', 'z', 'e'], ['c', 'e', 'l', 'l', '_', 'x', '_', 's', 't', 'e', 'p']]), (['l', 'o', 'n', 'g', '_', 'n', 'a', 'm', 'e'], .list [['M', 'e', 's', 'h', ' ', 's', 'i', 'z', 'e', ' ', 'a', 'l', 'o', 'n', 'g', ' ', 'x']]), (['u', 'n', 'i', 't', 's'], .list [['d', 'e', 'g', 'r', 'e', 'e', 's']])],
    ['s', 'n']⟩),
  -- dlat
  (['d', 'l', 'a', 't'], ⟨[],
    [(['s', 't', 'a', 'n', 'd', 'a', 'r', 'd', '_', 'n', 'a', 'm', 'e'], .list [['c', 'e', 'l', 'l', '_', 'y', '_', 's', 't', 'e', 'p'], ['c', 'e', 'l', 'l', '_', 'y', '_', 's', 'i', 'z', 'e']]), (['l', 'o', 'n', 'g', '_', 'n', 'a', 'm', 'e'], .list [['M', 'e', 's', 'h', ' ', 's', 't', 'e', 'p', ' ', 'a', 'l', 'o', 'n', 'g', ' ', 'y']]), (['u', 'n', 'i', 't', 's'], .list [['d', 'e', 'g', 'r', 'e', 'e', 's']])],
    ['s', 'n']⟩),
  -- cvol
  (['c', 'v', 'o', 'l'], ⟨[],
    [(['s', 't', 'a', 'n', 'd', 'a', 'r', 'd', '_', 'n', 'a', 'm', 'e'], .list [['c', 'e', 'l', 'l', '_', 'v', 'o', 'l', 'u', 'm', 'e']]), (['l', 'o', 'n', 'g', '_', 'n', 'a', 'm', 'e'], .list [['V', 'o', 'l', 'u', 'm', 'e', ' ', 'o', 'f', ' ', 't', 'h', 'e', ' ', 'c', 'e', 'l', 'l']]), (['u', 'n', 'i', 't', 's'], .list [['m', '3']])],
    ['s', 'n']⟩),
  -- vol
  (['v', 'o', 'l'], ⟨[],
    [(['s', 't', 'a', 'n', 'd', 'a', 'r', 'd', '_', 'n', 'a', 'm', 'e'], .list [['s', 'e', 'a', 'w', 'a', 't', 'e', 'r', '_', 'v', 'o', 'l', 'u', 'm', 'e']]), (['l', 'o', 'n', 'g', '_', 'n', 'a', 'm', 'e'], .list [['V', 'o', 'l', 'u', 'm', 'e', ' ', 'o', 'f', ' ', 't', 'h', 'e', ' ', 's', 'e', 'a', ' ', 'w', 'a', 't', 'e', 'r']]), (['u', 'n', 'i', 't', 's'], .list [['m', '3']])],
    ['s', 'n']⟩),
  -- corio
  (['c', 'o', 'r', 'i', 'o'], ⟨[['f', '0']],
    [(['s', 't', 'a', 'n', 'd', 'a', 'r', 'd', '_', 'n', 'a', 'm', 'e'], .list [['c', 'o', 'r', 'i', 'o', 'l', 'i', 's', '_', 'p', 'a', 'r', 'a', 'm', 'e', 't', 'e', 'r']]), (['l', 'o', 'n', 'g', '_', 'n', 'a', 'm', 'e'], .list [['C', 'o', 'r', 'i', 'o', 'l', 'i', 's', ' ', 'p', 'a', 'r', 'a', 'm', 'e', 't', 'e', 'r']]), (['u', 'n', 'i', 't', 's'], .list [['s', '-', '1']])],
    ['s', 'n']⟩),
  -- beta
  (['b', 'e', 't', 'a'], ⟨[],
    [(['s', 't', 'a', 'n', 'd', 'a', 'r', 'd', '_', 'n', 'a', 'm', 'e'], .list [['m', 'e', 'r', 'i', 'd', 'i', 'o', 'n', 'a', 'l', '_', 'd', 'e', 'r', 'i', 'v', 'a', 't', 'i', 'v', 'e', '_', 'o', 'f', '_', 'c', 'o', 'r', 'i', 'o', 'l', 'i', 's', '_', 'p', 'a', 'r', 'a', 'm', 'e', 't', 'e', 'r']]), (['l', 'o', 'n', 'g', '_', 'n', 'a', 'm', 'e'], .list [['M', 'e', 'r', 'i', 'd', 'i', 'o', 'n', 'a', 'l', ' ', 'd', 'e', 'r', 'i', 'v', 'a', 't', 'i', 'v', 'e', ' ', 'o', 'f', ' ', 'c', 'o', 'r', 'i', 'o', 'l', 'i', 's', ' ', 'p', 'a', 'r', 'a', 'm', 'e', 't', 'e', 'r']]), (['u', 'n', 'i', 't', 's'], .list [['m', '-', '1', ' ', 's', '-', '1']])],
    ['s', 'n']⟩),
  -- oro
  (['o', 'r', 'o'], ⟨[['z', 's']],
    [(['s', 't', 'a', 'n', 'd', 'a', 'r', 'd', '_', 'n', 'a', 'm', 'e'], .list [['o', 'r', 'o', 'g', 'r', 'a', 'p', 'h', 'y']]), (['l', 'o', 'n', 'g', '_', 'n', 'a', 'm', 'e'], .list [['O', 'r', 'o', 'g', 'r', 'a', 'p', 'h', 'y', ' ', 'f', 'o', 'r', ' ', 'S', 'L', 'E', 'V', 'E', ' ', 'v', 'e', 'r', 't', 'i', 'c', 'a', 'l', ' ', 'c', 'o', 'o', 'r', 'd', 'i', 'n', 'a', 't', 'e', 's']]), (['u', 'n', 'i', 't', 's'], .list [['m']])],
    ['s', 'n']⟩),
  -- orosm
  (['o', 'r', 'o', 's', 'm'], ⟨[],
    [(['s', 't', 'a', 'n', 'd', 'a', 'r', 'd', '_', 'n', 'a', 'm', 'e'], .list [['s', 'm', 'o', 'o', 't', 'h', 'e', 'd', '_', 'o', 'r', 'o', 'g', 'r', 'a', 'p', 'h', 'y']]), (['l', 'o', 'n', 'g', '_', 'n', 'a', 'm', 'e'], .list [['S', 'm', 'o', 'o', 't', 'h', 'e', 'd', ' ', 'o', 'r', 'o', 'g', 'r', 'a', 'p', 'h', 'y', ' ', 'f', 'o', 'r', ' ', 'S', 'L', 'E', 'V', 'E', ' ', 'v', 'e', 'r', 't', 'i', 'c', 'a', 'l', ' ', 'c', 'o', 'o', 'r', 'd', 'i', 'n', 'a', 't', 'e', 's']]), (['u', 'n', 'i', 't', 's'], .list [['m']])],
    ['s', 'n']⟩),
  -- nethf
  (['n', 'e', 't', 'h', 'f'], ⟨[['n', 'e', 't', 'h', 'f']],
    [(['s', 't', 'a', 'n', 'd', 'a', 'r', 'd', '_', 'n', 'a', 'm', 'e'], .list [['s', 'u', 'r', 'f', 'a', 'c', 'e', '_', 'n', 'e', 't', '_', 'a', 'v', 'e', 'r', 'a', 'g', 'e', 'd', '_', 'd', 'o', 'w', 'n', 'w', 'a', 'r', 'd', '_', 'r', 'a', 'd', 'i', 'a', 't', 'i', 'v', 'e', '_', 'f', 'l', 'u', 'x'], ['s', 'u', 'r', 'f', 'a', 'c', 'e', '_', 'n', 'e', 't', '_', 'd', 'o', 'w', 'n', 'w', 'a', 'r', 'd', '_', 'r', 'a', 'd', 'i', 'a', 't', 'i', 'v', 'e', '_', 'f', 'l', 'u', 'x']]), (['l', 'o', 'n', 'g', '_', 'n', 'a', 'm', 'e'], .list [['N', 'e', 't', ' ', 'r', 'a', 'd', 'i', 'a', 't', 'i', 'o', 'n']]), (['u', 'n', 'i', 't', 's'], .list [['W', ' ', 'm', '-', '2']])],
    ['s', 'n']⟩),
  -- lwnhf
  (['l', 'w', 'n', 'h', 'f'], ⟨[],
    [(['s', 't', 'a', 'n', 'd', 'a', 'r', 'd', '_', 'n', 'a', 'm', 'e'], .list [['s', 'u', 'r', 'f', 'a', 'c', 'e', '_', 'n', 'e', 't', '_', 'd', 'o', 'w', 'n', 'w', 'a', 'r', 'd', '_', 'l', 'o', 'n', 'g', 'w', 'a', 'v', 'e', '_', 'f', 'l', 'u', 'x']]), (['l', 'o', 'n', 'g', '_', 'n', 'a', 'm', 'e'], .list [['N', 'e', 't', ' ', 'l', 'o', 'n', 'g', 'w', 'a', 'v', 'e', ' ', 'r', 'a', 'd', 'i', 'a', 't', 'i', 'o', 'n', ' ', '(', 'p', 'o', 's', 'i', 't', 'i', 'v', 'e', ' ', 'w', 'h', 'e', 'n', ' ', 'd', 'i', 'r', 'e', 'c', 't', 'e', 'd', ' ', 'd', 'o', 'w', 'n', 'w', 'a', 'r', 'd', ')']]), (['u', 'n', 'i', 't', 's'], .list [['W', ' ', 'm', '-', '2']])],
    ['s', 'n']⟩),
  -- swnhf
  (['s', 'w', 'n', 'h', 'f'], ⟨[],
    [(['s', 't', 'a', 'n', 'd', 'a', 'r', 'd', '_', 'n', 'a', 'm', 'e'], .list [['s', 'u', 'r', 'f', 'a', 'c', 'e', '_', 'n', 'e', 't', '_', 'd', 'o', 'w', 'n', 'w', 'a', 'r', 'd', '_', 's', 'h', 'o', 'r', 't', 'w', 'a', 'v', 'e', '_', 'f', 'l', 'u', 'x']]), (['l', 'o', 'n', 'g', '_', 'n', 'a', 'm', 'e'], .list [['N', 'e', 't', ' ', 's', 'h', 'o', 'r', 't', 'w', 'a', 'v', 'e', ' ', 'r', 'a', 'd', 'i', 'a', 't', 'i', 'o', 'n', ' ', '(', 'p', 'o', 's', 'i', 't', 'i', 'v', 'e', ' ', 'w', 'h', 'e', 'n', ' ', 'd', 'i', 'r', 'e', 'c', 't', 'e', 'd', ' ', 'd', 'o', 'w', 'n', 'w', 'a', 'r', 'd', ')']]), (['u', 'n', 'i', 't', 's'], .list [['W', ' ', 'm', '-', '2']])],
    ['s', 'n']⟩),
  -- ghf
  (['g', 'h', 'f'], ⟨[['g', 'h', 'f']],
    [(['s', 't', 'a', 'n', 'd', 'a', 'r', 'd', '_', 'n', 'a', 'm', 'e'], .list [['a', 'v', 'e', 'r', 'a', 'g', 'e', 'd', '_', 'd', 'o', 'w', 'n', 'w', 'a', 'r', 'd', '_', 'g', 'r', 'o', 'u', 'n', 'd', '_', 'h', 'e', 'a', 't', '_', 'f', 'l', 'u', 'x']]), (['l', 'o', 'n', 'g', '_', 'n', 'a', 'm', 'e'], .list [['G', 'r', 'o', 'u', 'n', 'd', ' ', 'h', 'e', 'a', 't', ' ', 'f', 'l', 'u', 'x', ' ', '(', 'S', 'W', ' ', '+', ' ', 'L', 'W', ' ', '-', ' ', 'L', 'E', ' ', '-', ' ', 'H', ')']]), (['u', 'n', 'i', 't', 's'], .list [['W', ' ', 'm', '-', '2']])],
    ['s', 'n']⟩),
  -- lwuhf
  (['l', 'w', 'u', 'h', 'f'], ⟨[],
    [(['s', 't', 'a', 'n', 'd', 'a', 'r', 'd', '_', 'n', 'a', 'm', 'e'], .list [['s', 'u', 'r', 'f', 'a', 'c', 'e', '_', 'u', 'p', 'w', 'a', 'r', 'd', '_', 'l', 'o', 'n', 'g', 'w', 'a', 'v', 'e', '_', 'f', 'l', 'u', 'x']]), (['l', 'o', 'n', 'g', '_', 'n', 'a', 'm', 'e'], .list [['L', 'o', 'n', 'g', 'w', 'a', 'v', 'e', ' ', 'r', 'a', 'd', 'i', 'a', 't', 'i', 'o', 'n', ' ', '(', 'p', 'o', 's', 'i', 't', 'i', 'v', 'e', ' ', 'w', 'h', 'e', 'n', ' ', 'd', 'i', 'r', 'e', 'c', 't', 'e', 'd', ' ', 'u', 'p', 'w', 'a', 'r', 'd', ')']]), (['u', 'n', 'i', 't', 's'], .list [['W', ' ', 'm', '-', '2']])],
    ['s', 'n']⟩),
  -- swuhf
  (['s', 'w', 'u', 'h', 'f'], ⟨[],
    [(['s', 't', 'a', 'n', 'd', 'a', 'r', 'd', '_', 'n', 'a', 'm', 'e'], .list [['s', 'u', 'r', 'f', 'a', 'c', 'e', '_', 'u', 'p', 'w', 'a', 'r', 'd', '_', 's', 'h', 'o', 'r', 't', 'w', 'a', 'v', 'e', '_', 'f', 'l', 'u', 'x']]), (['l', 'o', 'n', 'g', '_', 'n', 'a', 'm', 'e'], .list [['S', 'h', 'o', 'r', 't', 'w', 'a', 'v', 'e', ' ', 'r', 'a', 'd', 'i', 'a', 't', 'i', 'o', 'n', ' ', '(', 'p', 'o', 's', 'i', 't', 'i', 'v', 'e', ' ', 'w', 'h', 'e', 'n', ' ', 'd', 'i', 'r', 'e', 'c', 't', 'e', 'd', ' ', 'u', 'p', 'w', 'a', 'r', 'd', ')']]), (['u', 'n', 'i', 't', 's'], .list [['W', ' ', 'm', '-', '2']])],
    ['s', 'n']⟩),
  -- lwdhf
  (['l', 'w', 'd', 'h', 'f'], ⟨[],
    [(['s', 't', 'a', 'n', 'd', 'a', 'r', 'd', '_', 'n', 'a', 'm', 'e'], .list [['s', 'u', 'r', 'f', 'a', 'c', 'e', '_', 'd', 'o', 'w', 'n', 'w', 'a', 'r', 'd', '_', 'l', 'o', 'n', 'g', 'w', 'a', 'v', 'e', '_', 'f', 'l', 'u', 'x']]), (['l', 'o', 'n', 'g', '_', 'n', 'a', 'm', 'e'], .list [['L', 'o', 'n', 'g', 'w', 'a', 'v', 'e', ' ', 'r', 'a', 'd', 'i', 'a', 't', 'i', 'o', 'n', ' ', '(', 'p', 'o', 's', 'i', 't', 'i', 'v', 'e', ' ', 'w', 'h', 'e', 'n', ' ', 'd', 'i', 'r', 'e', 'c', 't', 'e', 'd', ' ', 'd', 'o', 'w', 'n', 'w', 'a', 'r', 'd', ')']]), (['u', 'n', 'i', 't', 's'], .list [['W', ' ', 'm', '-', '2']])],
    ['s', 'n']⟩),
  -- swdhf
  (['s', 'w', 'd', 'h', 'f'], ⟨[],
    [(['s', 't', 'a', 'n', 'd', 'a', 'r', 'd', '_', 'n', 'a', 'm', 'e'], .list [['s', 'u', 'r', 'f', 'a', 'c', 'e', '_', 'd', 'o', 'w', 'n', 'w', 'a', 'r', 'd', '_', 's', 'h', 'o', 'r', 't', 'w', 'a', 'v', 'e', '_', 'f', 'l', 'u', 'x']]), (['l', 'o', 'n', 'g', '_', 'n', 'a', 'm', 'e'], .list [['S', 'h', 'o', 'r', 't', 'w', 'a', 'v', 'e', ' ', 'r', 'a', 'd', 'i', 'a', 't', 'i', 'o', 'n', ' ', '(', 'p', 'o', 's', 'i', 't', 'i', 'v', 'e', ' ', 'w', 'h', 'e', 'n', ' ', 'd', 'i', 'r', 'e', 'c', 't', 'e', 'd', ' ', 'd', 'o', 'w', 'n', 'w', 'a', 'r', 'd', ')']]), (['u', 'n', 'i', 't', 's'], .list [['W', ' ', 'm', '-', '2']])],
    ['s', 'n']⟩),
  -- lathf
  (['l', 'a', 't', 'h', 'f'], ⟨[],
    [(['s', 't', 'a', 'n', 'd', 'a', 'r', 'd', '_', 'n', 'a', 'm', 'e'], .list [['s', 'u', 'r', 'f', 'a', 'c', 'e', '_', 'd', 'o', 'w', 'n', 'w', 'a', 'r', 'd', '_', 'l', 'a', 't', 'e', 'n', 't', '_', 'h', 'e', 'a', 't', '_', 'f', 'l', 'u', 'x']]), (['l', 'o', 'n', 'g', '_', 'n', 'a', 'm', 'e'], .list [['L', 'a', 't', 'e', 'n', 't', ' ', 'h', 'e', 'a', 't', ' ', 'f', 'l', 'u', 'x', ' ', '(', 'p', 'o', 's', 'i', 't', 'i', 'v', 'e', ' ', 'w', 'h', 'e', 'n', ' ', 'd', 'i', 'r', 'e', 'c', 't', 'e', 'd', ' ', 'd', 'o', 'w', 'n', 'w', 'a', 'r', 'd', ')']]), (['u', 'n', 'i', 't', 's'], .list [['W', '.', 'm', '-', '2']])],
    ['s', 'n']⟩),
  -- hflat
  (['h', 'f', 'l', 'a', 't'], ⟨[],
    [(['s', 't', 'a', 'n', 'd', 'a', 'r', 'd', '_', 'n', 'a', 'm', 'e'], .list [['s', 'u', 'r', 'f', 'a', 'c', 'e', '_', 'a', 'v', 'e', 'r', 'a', 'g', 'e', 'd', '_', 'u', 'p', 'w', 'a', 'r', 'd', '_', 'l', 'a', 't', 'e', 'n', 't', '_', 'h', 'e', 'a', 't', '_', 'f', 'l', 'u', 'x'], ['u', 'p', 'w', 'a', 'r', 'd', '_', 'l', 'a', 't', 'e', 'n', 't', '_', 'h', 'e', 'a', 't', '_', 'f', 'l', 'u', 'x'], ['s', 'u', 'r', 'f', 'a', 'c', 'e', '_', 'u', 'p', 'w', 'a', 'r', 'd', '_', 'l', 'a', 't', 'e', 'n', 't', '_', 'h', 'e', 'a', 't', '_', 'f', 'l', 'u', 'x']]), (['l', 'o', 'n', 'g', '_', 'n', 'a', 'm', 'e'], .list [['L', 'a', 't', 'e', 'n', 't', ' ', 'h', 'e', 'a', 't', ' ', 'f', 'l', 'u', 'x', ' ', '(', 'p', 'o', 's', 'i', 't', 'i', 'v', 'e', ' ', 'w', 'h', 'e', 'n', ' ', 'd', 'i', 'r', 'e', 'c', 't', 'e', 'd', ' ', 'u', 'p', 'w', 'a', 'r', 'd', ')']]), (['u', 'n', 'i', 't', 's'], .list [['W', '.', 'm', '-', '2']])],
    ['s', 'n']⟩),
  -- senhf
  (['s', 'e', 'n', 'h', 'f'], ⟨[],
    [(['s', 't', 'a', 'n', 'd', 'a', 'r', 'd', '_', 'n', 'a', 'm', 'e'], .list [['s', 'u', 'r', 'f', 'a', 'c', 'e', '_', 'd', 'o', 'w', 'n', 'w', 'a', 'r', 'd', '_', 's', 'e', 'n', 's', 'i', 'b', 'l', 'e', '_', 'h', 'e', 'a', 't', '_', 'f', 'l', 'u', 'x']]), (['l', 'o', 'n', 'g', '_', 'n', 'a', 'm', 'e'], .list [['S', 'e', 'n', 's', 'i', 'b', 'l', 'e', ' ', 'h', 'e', 'a', 't', ' ', 'f', 'l', 'u', 'x', ' ', '(', 'p', 'o', 's', 'i', 't', 'i', 'v', 'e', ' ', 'w', 'h', 'e', 'n', ' ', 'd', 'i', 'r', 'e', 'c', 't', 'e', 'd', ' ', 'd', 'o', 'w', 'n', 'w', 'a', 'r', 'd', ')']]), (['u', 'n', 'i', 't', 's'], .list [['W', ' ', 'm', '-', '2']])],
    ['s', 'n']⟩),
  -- hfsen
  (['h', 'f', 's', 'e', 'n'], ⟨[],
    [(['s', 't', 'a', 'n', 'd', 'a', 'r', 'd', '_', 'n', 'a', 'm', 'e'], .list [['s', 'u', 'r', 'f', 'a', 'c', 'e', '_', 'a', 'v', 'e', 'r', 'a', 'g', 'e', 'd', '_', 'u', 'p', 'w', 'a', 'r', 'd', '_', 's', 'e', 'n', 's', 'i', 'b', 'l', 'e', '_', 'h', 'e', 'a', 't', '_', 'f', 'l', 'u', 'x'], ['u', 'p', 'w', 'a', 'r', 'd', '_', 's', 'e', 'n', 's', 'i', 'b', 'l', 'e', '_', 'h', 'e', 'a', 't', '_', 'f', 'l', 'u', 'x'], ['s', 'u', 'r', 'f', 'a', 'c', 'e', '_', 'u', 'p', 'w', 'a', 'r', 'd', '_', 's', 'e', 'n', 's', 'i', 'b', 'l', 'e', '_', 'h', 'e', 'a', 't', '_', 'f', 'l', 'u', 'x']]), (['l', 'o', 'n', 'g', '_', 'n', 'a', 'm', 'e'], .list [['S', 'e', 'n', 's', 'i', 'b', 'l', 'e', ' ', 'h', 'e', 'a', 't', ' ', 'f', 'l', 'u', 'x', ' ', '(', 'p', 'o', 's', 'i', 't', 'i', 'v', 'e', ' ', 'w', 'h', 'e', 'n', ' ', 'd', 'i', 'r', 'e', 'c', 't', 'e', 'd', ' ', 'u', 'p', 'w', 'a', 'r', 'd', ')']]), (['u', 'n', 'i', 't', 's'], .list [['W', ' ', 'm', '-', '2']])],
    ['s', 'n']⟩),
  -- evap
  (['e', 'v', 'a', 'p'], ⟨[],
    [(['s', 't', 'a', 'n', 'd', 'a', 'r', 'd', '_', 'n', 'a', 'm', 'e'], .list [['l', 'w', 'e', '_', 't', 'h', 'i', 'c', 'k', 'n', 'e', 's', 's', '_', 'o', 'f', '_', 'w', 'a', 't', 'e', 'r', '_', 'e', 'v', 'a', 'p', 'o', 'r', 'a', 't', 'i', 'o', 'n', '_', 'a', 'm', 'o', 'u', 'n', 't']]), (['l', 'o', 'n', 'g', '_', 'n', 'a', 'm', 'e'], .list [['e', 'v', 'a', 'p', 'o', 'r', 'a', 't', 'i', 'o', 'n', ' ', '(', 'p', 'o', 's', 'i', 't', 'i', 'v', 'e', ' ', 'w', 'h', 'e', 'n', ' ', 'd', 'i', 'r', 'e', 'c', 't', 'e', 'd', ' ', 'd', 'o', 'w', 'n', 'w', 'a', 'r', 'd', ')']]), (['u', 'n', 'i', 't', 's'], .list [['m']])],
    ['s', 'n']⟩),
  -- rain
  (['r', 'a', 'i', 'n'], ⟨[],
    [(['s', 't', 'a', 'n', 'd', 'a', 'r', 'd', '_', 'n', 'a', 'm', 'e'], .list [['l', 'w', 'e', '_', 't', 'h', 'i', 'c', 'k', 'n', 'e', 's', 's', '_', 'o', 'f', '_', 'p', 'r', 'e', 'c', 'i', 'p', 'i', 't', 'a', 't', 'i', 'o', 'n', '_', 'a', 'm', 'o', 'u', 'n', 't'], ['l', 'w', 'e', '_', 't', 'h', 'i', 'c', 'k', 'n', 'e', 's', 's', '_', 'o', 'f', '_', 'd', 'o', 'w', 'n', 'w', 'a', 'r', 'd', '_', 'p', 'r', 'e', 'c', 'i', 'p', 'i', 't', 'a', 't', 'i', 'o', 'n', '_', 'a', 'm', 'o', 'u', 'n', 't']]), (['l', 'o', 'n', 'g', '_', 'n', 'a', 'm', 'e'], .list [['P', 'r', 'e', 'c', 'i', 'p', 'i', 't', 'a', 't', 'i', 'o', 'n', ' ', '[', 'D', 'o', 'w', 'n', 'w', 'a', 'r', 'd', ' ', '(', 'p', 'o', 's', 'i', 't', 'i', 'v', 'e', ' ', 'w', 'h', 'e', 'n', ' ', 'i', 't', ' ', 'i', 's', ' ', 'r', 'a', 'i', 'n', 'i', 'n', 'g', ')', ']']]), (['u', 'n', 'i', 't', 's'], .list [['m'], ['m', 'm']])],
    ['s', 'n']⟩),
  -- t2m
  (['t', '2', 'm'], ⟨[],
    [(['l', 'o', 'n', 'g', '_', 'n', 'a', 'm', 'e'], .list [['T', '2', 'm']]), (['s', 't', 'a', 'n', 'd', 'a', 'r', 'd', '_', 'n', 'a', 'm', 'e'], .list []), (['u', 'n', 'i', 't', 's'], .list [])],
    ['s', 'n']⟩),
  -- q2m
  (['q', '2', 'm'], ⟨[],
    [(['s', 't', 'a', 'n', 'd', 'a', 'r', 'd', '_', 'n', 'a', 'm', 'e'], .list [['a', 'i', 'r', '_', 's', 'p', 'e', 'c', 'i', 'f', 'i', 'c', '_', 'h', 'u', 'm', 'i', 'd', 'i', 't', 'y', '_', 'a', 't', '_', '2', '_', 'm', 'e', 't', 'e', 'r', 's']]), (['l', 'o', 'n', 'g', '_', 'n', 'a', 'm', 'e'], .list [['2', ' ', 'm', ' ', 's', 'p', 'e', 'c', 'i', 'f', 'i', 'c', ' ', 'h', 'u', 'm', 'i', 'd', 'i', 't', 'y']]), (['u', 'n', 'i', 't', 's'], .list [['k', 'g', ' ', 'k', 'g', '-', '1']])],
    ['s', 'n']⟩),
  -- hu2m
  (['h', 'u', '2', 'm'], ⟨[['q', '2', 'm']],
    [(['s', 't', 'a', 'n', 'd', 'a', 'r', 'd', '_', 'n', 'a', 'm', 'e'], .list [['a', 'i', 'r', '_', 'r', 'e', 'l', 'a', 't', 'i', 'v', 'e', '_', 's', 'p', 'e', 'c', 'i', 'f', 'i', 'c', '_', 'h', 'u', 'm', 'i', 'd', 'i', 't', 'y', '_', 'a', 't', '_', '2', '_', 'm', 'e', 't', 'e', 'r', 's']]), (['l', 'o', 'n', 'g', '_', 'n', 'a', 'm', 'e'], .list [['2', ' ', 'm', ' ', 's', 'p', 'e', 'c', 'i', 'f', 'i', 'c', ' ', 'h', 'u', 'm', 'i', 'd', 'i', 't', 'y']]), (['u', 'n', 'i', 't', 's'], .list [['k', 'g', ' ', 'k', 'g', '-', '1']])],
    ['s', 'n']⟩),
  -- z0a
  (['z', '0', 'a'], ⟨[['z', '0']],
    [(['s', 't', 'a', 'n', 'd', 'a', 'r', 'd', '_', 'n', 'a', 'm', 'e'], .list [['a', 'i', 'r', '_', 's', 'u', 'r', 'f', 'a', 'c', 'e', '_', 'r', 'o', 'u', 'g', 'h', 'n', 'e', 's', 's', '_', 'l', 'e', 'n', 'g', 't', 'h'], ['s', 'u', 'r', 'f', 'a', 'c', 'e', '_', 'r', 'o', 'u', 'g', 'h', 'n', 'e', 's', 's', '_', 'l', 'e', 'n', 'g', 't', 'h'], ['r', 'o', 'u', 'g', 'h', 'n', 'e', 's', 's', '_', 'l', 'e', 'n', 'g', 't', 'h']]), (['l', 'o', 'n', 'g', '_', 'n', 'a', 'm', 'e'], .list [['A', 'i', 'r', ' ', 'r', 'o', 'u', 'g', 'h', 'n', 'e', 's', 's', ' ', 'l', 'e', 'n', 'g', 't', 'h']]), (['u', 'n', 'i', 't', 's'], .list [['m']])],
    ['s', 'n']⟩),
  -- cda
  (['c', 'd', 'a'], ⟨[['c', 'd']],
    [(['s', 't', 'a', 'n', 'd', 'a', 'r', 'd', '_', 'n', 'a', 'm', 'e'], .list [['a', 'v', 'e', 'r', 'a', 'g', 'e', 'd', '_', 'd', 'r', 'a', 'g', '_', 'm', 'o', 'm', 'e', 'n', 't', 'u', 'm', '_', 'c', 'o', 'e', 'f', 'f', 'i', 'c', 'i', 'e', 'n', 't', '_', 'i', 'n', '_', 'a', 'i', 'r'], ['d', 'r', 'a', 'g', '_', 'm', 'o', 'm', 'e', 'n', 't', 'u', 'm', '_', 'c', 'o', 'e', 'f', 'f', 'i', 'c', 'i', 'e', 'n', 't', '_', 'i', 'n', '_', 'a', 'i', 'r']]), (['l', 'o', 'n', 'g', '_', 'n', 'a', 'm', 'e'], .list [['A', 'v', 'e', 'r', 'a', 'g', 'e', 'd', ' ', 'd', 'r', 'a', 'g', ' ', 'm', 'o', 'm', 'e', 'n', 't', 'u', 'm', ' ', 'c', 'o', 'e', 'f', 'f', 'i', 'c', 'i', 'e', 'n', 't'], ['D', 'r', 'a', 'g', ' ', 'm', 'o', 'm', 'e', 'n', 't', 'u', 'm', ' ', 'c', 'o', 'e', 'f', 'f', 'i', 'c', 'i', 'e', 'n', 't']]), (['u', 'n', 'i', 't', 's'], .list [['W', ' ', 's', '-', '2']])],
    ['s', 'n']⟩),
  -- cha
  (['c', 'h', 'a'], ⟨[['c', 'h']],
    [(['s', 't', 'a', 'n', 'd', 'a', 'r', 'd', '_', 'n', 'a', 'm', 'e'], .list [['a', 'v', 'e', 'r', 'a', 'g', 'e', 'd', '_', 'd', 'r', 'a', 'g', '_', 't', 'h', 'e', 'r', 'm', 'a', 'l', '_', 'c', 'o', 'e', 'f', 'f', 'i', 'c', 'i', 'e', 'n', 't', '_', 'i', 'n', '_', 'a', 'i', 'r'], ['d', 'r', 'a', 'g', '_', 't', 'h', 'e', 'r', 'm', 'a', 'l', '_', 'c', 'o', 'e', 'f', 'f', 'i', 'c', 'i', 'e', 'n', 't', '_', 'i', 'n', '_', 'a', 'i', 'r']]), (['l', 'o', 'n', 'g', '_', 'n', 'a', 'm', 'e'], .list [['A', 'v', 'e', 'r', 'a', 'g', 'e', 'd', ' ', 'd', 'r', 'a', 'g', ' ', 't', 'h', 'e', 'r', 'm', 'a', 'l', ' ', 'c', 'o', 'e', 'f', 'f', 'i', 'c', 'i', 'e', 'n', 't'], ['D', 'r', 'a', 'g', ' ', 't', 'h', 'e', 'r', 'm', 'a', 'l', ' ', 'c', 'o', 'e', 'f', 'f', 'i', 'c', 'i', 'e', 'n', 't']]), (['u', 'n', 'i', 't', 's'], .list [['W', ' ', 's', '-', '2']])],
    ['s', 'n']⟩),
  -- cea
  (['c', 'e', 'a'], ⟨[['c', 'e']],
    [(['s', 't', 'a', 'n', 'd', 'a', 'r', 'd', '_', 'n', 'a', 'm', 'e'], .list [['a', 'v', 'e', 'r', 'a', 'g', 'e', 'd', '_', 'l', 'a', 't', 'e', 'n', 't', '_', 'h', 'e', 'a', 't', '_', 'c', 'o', 'e', 'f', 'f', 'i', 'c', 'i', 'e', 'n', 't', '_', 'i', 'n', '_', 'a', 'i', 'r'], ['l', 'a', 't', 'e', 'n', 't', '_', 'h', 'e', 'a', 't', '_', 'c', 'o', 'e', 'f', 'f', 'i', 'c', 'i', 'e', 'n', 't', '_', 'i', 'n', '_', 'a', 'i', 'r']]), (['l', 'o', 'n', 'g', '_', 'n', 'a', 'm', 'e'], .list [['A', 'v', 'e', 'r', 'a', 'g', 'e', 'd', ' ', 'l', 'a', 't', 'e', 'n', 't', ' ', 'h', 'e', 'a', 't', ' ', 'f', 'l', 'u', 'x', ' ', 'c', 'o', 'e', 'f', 'f', 'i', 'c', 'i', 'e', 'n', 't'], ['L', 'a', 't', 'e', 'n', 't', ' ', 'h', 'e', 'a', 't', ' ', 'f', 'l', 'u', 'x', ' ', 'c', 'o', 'e', 'f', 'f', 'i', 'c', 'i', 'e', 'n', 't']]), (['u', 'n', 'i', 't', 's'], .list [['W', ' ', 's', '-', '2']])],
    ['s', 'n']⟩),
  -- wspd
  (['w', 's', 'p', 'd'], ⟨[],
    [(['s', 't', 'a', 'n', 'd', 'a', 'r', 'd', '_', 'n', 'a', 'm', 'e'], .list [['w', 'i', 'n', 'd', '_', 's', 'p', 'e', 'e', 'd']]), (['l', 'o', 'n', 'g', '_', 'n', 'a', 'm', 'e'], .list [['W', 'i', 'n', 'd', ' ', 's', 'p', 'e', 'e', 'd']]), (['u', 'n', 'i', 't', 's'], .list [['m', ' ', 's', '-', '1']])],
    ['s', 'n']⟩),
  -- wdir
  (['w', 'd', 'i', 'r'], ⟨[],
    [(['s', 't', 'a', 'n', 'd', 'a', 'r', 'd', '_', 'n', 'a', 'm', 'e'], .list [['w', 'i', 'n', 'd', '_', 't', 'o', '_', 'd', 'i', 'r', 'e', 'c', 't', 'i', 'o', 'n'], ['w', 'i', 'n', 'd', '_', 'f', 'r', 'o', 'm', '_', 'd', 'i', 'r', 'e', 'c', 't', 'i', 'o', 'n']]), (['l', 'o', 'n', 'g', '_', 'n', 'a', 'm', 'e'], .list [['W', 'i', 'n', 'd', ' ', 'd', 'i', 'r', 'e', 'c', 't', 'i', 'o', 'n']]), (['u', 'n', 'i', 't', 's'], .list [['d', 'e', 'g', 'r', 'e', 'e', 's']])],
    ['s', 'n']⟩),
  -- wfdir
  (['w', 'f', 'd', 'i', 'r'], ⟨[],
    [(['s', 't', 'a', 'n', 'd', 'a', 'r', 'd', '_', 'n', 'a', 'm', 'e'], .list [['w', 'i', 'n', 'd', '_', 'f', 'r', 'o', 'm', '_', 'd', 'i', 'r', 'e', 'c', 't', 'i', 'o', 'n']]), (['l', 'o', 'n', 'g', '_', 'n', 'a', 'm', 'e'], .list [['W', 'i', 'n', 'd', ' ', 'f', 'r', 'o', 'm', ' ', 'd', 'i', 'r', 'e', 'c', 't', 'i', 'o', 'n']]), (['u', 'n', 'i', 't', 's'], .list [['d', 'e', 'g', 'r', 'e', 'e', 's']]), (['c', 'm', 'a', 'p'], .text ['c', 'm', 'o', '.', 'p', 'h', 'a', 's', 'e', ':', 'c', 'y', 'c', '3', '6', '0'])],
    ['s', 'n']⟩),
  -- wtdir
  (['w', 't', 'd', 'i', 'r'], ⟨[],
    [(['s', 't', 'a', 'n', 'd', 'a', 'r', 'd', '_', 'n', 'a', 'm', 'e'], .list [['w', 'i', 'n', 'd', '_', 't', 'o', '_', 'd', 'i', 'r', 'e', 'c', 't', 'i', 'o', 'n']]), (['l', 'o', 'n', 'g', '_', 'n', 'a', 'm', 'e'], .list [['W', 'i', 'n', 'd', ' ', 't', 'o', ' ', 'd', 'i', 'r', 'e', 'c', 't', 'i', 'o', 'n']]), (['u', 'n', 'i', 't', 's'], .list [['d', 'e', 'g', 'r', 'e', 'e', 's']])],
    ['s', 'n']⟩),
  -- uair
  (['u', 'a', 'i', 'r'], ⟨[['u', 'a', 'i', 'r'], ['u', 'a'], ['u', 'w', 'n', 'd']],
    [(['s', 't', 'a', 'n', 'd', 'a', 'r', 'd', '_', 'n', 'a', 'm', 'e'], .list [['e', 'a', 's', 't', 'w', 'a', 'r', 'd', '_', 'w', 'i', 'n', 'd'], ['x', '_', 'w', 'i', 'n', 'd']]), (['l', 'o', 'n', 'g', '_', 'n', 'a', 'm', 'e'], .list [['Z', 'o', 'n', 'a', 'l', ' ', 'w', 'i', 'n', 'd', ' ', 's', 'p', 'e', 'e', 'd', ' ', '(', 'w', 'e', 's', 't', 'e', 'r', 'l', 'y', ')']]), (['u', 'n', 'i', 't', 's'], .list [['m', ' ', 's', '-', '1']])],
    ['s', 'n']⟩),
  -- vair
  (['v', 'a', 'i', 'r'], ⟨[['v', 'a', 'i', 'r'], ['v', 'a'], ['v', 'w', 'n', 'd']],
    [(['s', 't', 'a', 'n', 'd', 'a', 'r', 'd', '_', 'n', 'a', 'm', 'e'], .list [['n', 'o', 'r', 't', 'h', 'w', 'a', 'r', 'd', '_', 'w', 'i', 'n', 'd'], ['y', '_', 'w', 'i', 'n', 'd']]), (['l', 'o', 'n', 'g', '_', 'n', 'a', 'm', 'e'], .list [['M', 'e', 'r', 'i', 'd', 'i', 'o', 'n', 'a', 'l', ' ', 'w', 'i', 'n', 'd', ' ', 's', 'p', 'e', 'e', 'd', ' ', '(', 'n', 'o', 'r', 't', 'h', 'e', 'r', 'l', 'y', ')']]), (['u', 'n', 'i', 't', 's'], .list [['m', ' ', 's', '-', '1']])],
    ['s', 'n']⟩),
  -- wair
  (['w', 'a', 'i', 'r'], ⟨[['w', 'a'], ['w', 'w', 'n', 'd']],
    [(['s', 't', 'a', 'n', 'd', 'a', 'r', 'd', '_', 'n', 'a', 'm', 'e'], .list [['u', 'p', 'w', 'a', 'r', 'd', '_', 'w', 'i', 'n', 'd'], ['z', '_', 'w', 'i', 'n', 'd']]), (['l', 'o', 'n', 'g', '_', 'n', 'a', 'm', 'e'], .list [['U', 'p', 'w', 'a', 'r', 'd', ' ', 'w', 'i', 'n', 'd', ' ', 's', 'p', 'e', 'e', 'd']]), (['u', 'n', 'i', 't', 's'], .list [['m', ' ', 's', '-', '1']])],
    ['s', 'n']⟩),
  -- tair
  (['t', 'a', 'i', 'r'], ⟨[['t', 'e', 'm', 'p'], ['t', 'h', 't']],
    [(['s', 't', 'a', 'n', 'd', 'a', 'r', 'd', '_', 'n', 'a', 'm', 'e'], .list [['a', 'i', 'r', '_', 'p', 'o', 't', 'e', 'n', 't', 'i', 'a', 'l', '_', 't', 'e', 'm', 'p', 'e', 'r', 'a', 't', 'u', 'r', 'e'], ['a', 'i', 'r', '_', 't', 'e', 'm', 'p', 'e', 'r', 'a', 't', 'u', 'r', 'e']]), (['l', 'o', 'n', 'g', '_', 'n', 'a', 'm', 'e'], .list [['T', 'e', 'm', 'p', 'e', 'r', 'a', 't', 'u', 'r', 'e']]), (['u', 'n', 'i', 't', 's'], .list [['d', 'e', 'g', 'r', 'e', 'e', 's', '_', 'k', 'e', 'l', 'v', 'i', 'n'], ['K']])],
    ['s', 'n']⟩),
  -- pa
  (['p', 'a'], ⟨[['p', 's', 'l']],
    [(['s', 't', 'a', 'n', 'd', 'a', 'r', 'd', '_', 'n', 'a', 'm', 'e'], .list [['a', 'i', 'r', '_', 'p', 'r', 'e', 's', 's', 'u', 'r', 'e', '_', 'a', 't', '_', 's', 'e', 'a', '_', 'l', 'e', 'v', 'e', 'l'], ['a', 'i', 'r', '_', 'p', 'r', 'e', 's', 's', 'u', 'r', 'e', '_', 'a', 't', '_', 'm', 'e', 'a', 'n', '_', 's', 'e', 'a', '_', 'l', 'e', 'v', 'e', 'l']]), (['l', 'o', 'n', 'g', '_', 'n', 'a', 'm', 'e'], .list [['A', 'b', 's', 'o', 'l', 'u', 't', 'e', ' ', 'p', 'r', 'e', 's', 's', 'u', 'r', 'e']]), (['u', 'n', 'i', 't', 's'], .list [['P', 'a']])],
    ['s', 'n']⟩),
  -- ps
  (['p', 's'], ⟨[],
    [(['s', 't', 'a', 'n', 'd', 'a', 'r', 'd', '_', 'n', 'a', 'm', 'e'], .list [['s', 'u', 'r', 'f', 'a', 'c', 'e', '_', 'a', 'i', 'r', '_', 'p', 'r', 'e', 's', 's', 'u', 'r', 'e']]), (['l', 'o', 'n', 'g', '_', 'n', 'a', 'm', 'e'], .list [['S', 'u', 'r', 'f', 'a', 'c', 'e', ' ', 'a', 'i', 'r', ' ', 'p', 'r', 'e', 's', 's', 'u', 'r', 'e']]), (['u', 'n', 'i', 't', 's'], .list [['P', 'a']])],
    ['s', 'n']⟩),
  -- plev
  (['p', 'l', 'e', 'v'], ⟨[],
    [(['s', 't', 'a', 'n', 'd', 'a', 'r', 'd', '_', 'n', 'a', 'm', 'e'], .list [['a', 'i', 'r', '_', 'p', 'r', 'e', 's', 's', 'u', 'r', 'e']]), (['l', 'o', 'n', 'g', '_', 'n', 'a', 'm', 'e'], .list [['A', 'i', 'r', ' ', 'p', 'r', 'e', 's', 's', 'u', 'r', 'e']]), (['u', 'n', 'i', 't', 's'], .list [['P', 'a']])],
    ['s', 'n']⟩),
  -- ptop
  (['p', 't', 'o', 'p'], ⟨[],
    [(['s', 't', 'a', 'n', 'd', 'a', 'r', 'd', '_', 'n', 'a', 'm', 'e'], .list [['a', 'i', 'r', '_', 'p', 'r', 'e', 's', 's', 'u', 'r', 'e', '_', 'a', 't', '_', 't', 'o', 'p', '_', 'o', 'f', '_', 'a', 't', 'm', 'o', 's', 'p', 'h', 'e', 'r', 'e', '_', 'm', 'o', 'd', 'e', 'l']]), (['l', 'o', 'n', 'g', '_', 'n', 'a', 'm', 'e'], .list [['A', 'i', 'r', ' ', 'p', 'r', 'e', 's', 's', 'u', 'r', 'e', ' ', 'a', 't', ' ', 't', 'o', 'p', ' ', 'o', 'f', ' ', 'm', 'o', 'd', 'e', 'l']]), (['u', 'n', 'i', 't', 's'], .list [['P', 'a']])],
    ['s', 'n']⟩),
  -- tkea
  (['t', 'k', 'e', 'a'], ⟨[],
    [(['s', 't', 'a', 'n', 'd', 'a', 'r', 'd', '_', 'n', 'a', 'm', 'e'], .list [['a', 'i', 'r', '_', 't', 'u', 'r', 'b', 'u', 'l', 'e', 'n', 't', '_', 'k', 'i', 'n', 'e', 't', 'i', 'c', '_', 'e', 'n', 'e', 'r', 'g', 'y']]), (['l', 'o', 'n', 'g', '_', 'n', 'a', 'm', 'e'], .list [['T', 'u', 'r', 'b', 'u', 'l', 'e', 'n', 't', ' ', 'K', 'i', 'n', 'e', 't', 'i', 'c', ' ', 'E', 'n', 'e', 'r', 'g', 'y']]), (['u', 'n', 'i', 't', 's'], .list [['m', '2', ' ', 's', '-', '2']])],
    ['s', 'n']⟩),
  -- u10m
  (['u', '1', '0', 'm'], ⟨[],
    [(['s', 't', 'a', 'n', 'd', 'a', 'r', 'd', '_', 'n', 'a', 'm', 'e'], .list [['x', '_', 'w', 'i', 'n', 'd', '_', 'a', 't', '_', '1', '0', 'm'], ['x', '_', 'w', 'i', 'n', 'd'], ['x', '_', 'w', 'i', 'n', 'd', '_', 'a', 't', '_', 'u', '_', 'l', 'o', 'c', 'a', 't', 'i', 'o', 'n'], ['x', '_', 'w', 'i', 'n', 'd', '_', 'a', 't', '_', '1', '0', 'm', '_', 'a', 't', '_', 'u', '_', 'l', 'o', 'c', 'a', 't', 'i', 'o', 'n'], ['e', 'a', 's', 't', 'w', 'a', 'r', 'd', '_', 'w', 'i', 'n', 'd']]), (['l', 'o', 'n', 'g', '_', 'n', 'a', 'm', 'e'], .list [['1', '0', '-', 'm', ' ', 'z', 'o', 'n', 'a', 'l', ' ', 'w', 'i', 'n', 'd', ' ', 's', 'p', 'e', 'e', 'd', ' ', '(', 'w', 'e', 's', 't', 'e', 'r', 'l', 'y', ')']]), (['u', 'n', 'i', 't', 's'], .list [['m', ' ', 's', '-', '1']]), (['c', 'm', 'a', 'p'], .text ['c', 'm', 'o', '.', 'd', 'e', 'l', 't', 'a', ':', 'p', 'i', 'v', '0'])],
    ['s', 'n']⟩),
  -- v10m
  (['v', '1', '0', 'm'], ⟨[],
    [(['s', 't', 'a', 'n', 'd', 'a', 'r', 'd', '_', 'n', 'a', 'm', 'e'], .list [['y', '_', 'w', 'i', 'n', 'd', '_', 'a', 't', '_', '1', '0', 'm'], ['y', '_', 'w', 'i', 'n', 'd'], ['y', '_', 'w', 'i', 'n', 'd', '_', 'a', 't', '_', 'v', '_', 'l', 'o', 'c', 'a', 't', 'i', 'o', 'n'], ['y', '_', 'w', 'i', 'n', 'd', '_', 'a', 't', '_', '1', '0', 'm', '_', 'a', 't', '_', 'v', '_', 'l', 'o', 'c', 'a', 't', 'i', 'o', 'n'], ['n', 'o', 'r', 't', 'h', 'w', 'a', 'r', 'd', '_', 'w', 'i', 'n', 'd']]), (['l', 'o', 'n', 'g', '_', 'n', 'a', 'm', 'e'], .list [['1', '0', '-', 'm', ' ', 'm', 'e', 'r', 'i', 'd', 'i', 'o', 'n', 'a', 'l', ' ', 'w', 'i', 'n', 'd', ' ', 's', 'p', 'e', 'e', 'd', ' ', '(', 'n', 'o', 'r', 't', 'h', 'e', 'r', 'l', 'y', ')']]), (['u', 'n', 'i', 't', 's'], .list [['m', ' ', 's', '-', '1']]), (['c', 'm', 'a', 'p'], .text ['c', 'm', 'o', '.', 'd', 'e', 'l', 't', 'a', ':', 'p', 'i', 'v', '0'])],
    ['s', 'n']⟩),
  -- w10m
  (['w', '1', '0', 'm'], ⟨[],
    [(['s', 't', 'a', 'n', 'd', 'a', 'r', 'd', '_', 'n', 'a', 'm', 'e'], .list [['z', '_', 'w', 'i', 'n', 'd', '_', 'a', 't', '_', '1', '0', 'm'], ['u', 'p', 'w', 'a', 'r', 'd', '_', 'w', 'i', 'n', 'd', '_', 'a', 't', '_', '1', '0', 'm']]), (['l', 'o', 'n', 'g', '_', 'n', 'a', 'm', 'e'], .list [['1', '0', '-', 'm', ' ', 'm', 'e', 'r', 'i', 'd', 'i', 'o', 'n', 'a', 'l', ' ', 'w', 'i', 'n', 'd', ' ', 's', 'p', 'e', 'e', 'd', ' ', '(', 'n', 'o', 'r', 't', 'h', 'e', 'r', 'l', 'y', ')']]), (['u', 'n', 'i', 't', 's'], .list [['m', ' ', 's', '-', '1']])],
    ['s', 'n']⟩),
  -- ux10m
  (['u', 'x', '1', '0', 'm'], ⟨[],
    [(['s', 't', 'a', 'n', 'd', 'a', 'r', 'd', '_', 'n', 'a', 'm', 'e'], .list [['x', '_', 'w', 'i', 'n', 'd', '_', 'a', 't', '_', '1', '0', 'm'], ['x', '_', 'w', 'i', 'n', 'd'], ['g', 'r', 'i', 'd', '_', 'e', 'a', 's', 't', 'w', 'a', 'r', 'd', '_', 'w', 'i', 'n', 'd'], ['x', '_', 'w', 'i', 'n', 'd', '_', 'a', 't', '_', 'u', '_', 'l', 'o', 'c', 'a', 't', 'i', 'o', 'n'], ['x', '_', 'w', 'i', 'n', 'd', '_', 'a', 't', '_', '1', '0', 'm', '_', 'a', 't', '_', 'u', '_', 'l', 'o', 'c', 'a', 't', 'i', 'o', 'n']]), (['l', 'o', 'n', 'g', '_', 'n', 'a', 'm', 'e'], .list [['1', '0', '-', 'm', ' ', 'w', 'i', 'n', 'd', ' ', 's', 'p', 'e', 'e', 'd', ' ', 'a', 'l', 'o', 'n', 'g', ' ', 'X']]), (['u', 'n', 'i', 't', 's'], .list [['m', ' ', 's', '-', '1']])],
    ['s', 'n']⟩),
  -- vy10m
  (['v', 'y', '1', '0', 'm'], ⟨[],
    [(['s', 't', 'a', 'n', 'd', 'a', 'r', 'd', '_', 'n', 'a', 'm', 'e'], .list [['y', '_', 'w', 'i', 'n', 'd', '_', 'a', 't', '_', '1', '0', 'm'], ['y', '_', 'w', 'i', 'n', 'd'], ['g', 'r', 'i', 'd', '_', 'n', 'o', 'r', 't', 'h', 'w', 'a', 'r', 'd', '_', 'w', 'i', 'n', 'd'], ['y', '_', 'w', 'i', 'n', 'd', '_', 'a', 't', '_', 'v', '_', 'l', 'o', 'c', 'a', 't', 'i', 'o', 'n'], ['y', '_', 'w', 'i', 'n', 'd', '_', 'a', 't', '_', '1', '0', 'm', '_', 'a', 't', '_', 'v', '_', 'l', 'o', 'c', 'a', 't', 'i', 'o', 'n']]), (['l', 'o', 'n', 'g', '_', 'n', 'a', 'm', 'e'], .list [['1', '0', '-', 'm', ' ', 'w', 'i', 'n', 'd', ' ', 's', 'p', 'e', 'e', 'd', ' ', 'a', 'l', 'o', 'n', 'g', ' ', 'Y']]), (['u', 'n', 'i', 't', 's'], .list [['m', ' ', 's', '-', '1']])],
    ['s', 'n']⟩),
  -- tauu
  (['t', 'a', 'u', 'u'], ⟨[],
    [(['s', 't', 'a', 'n', 'd', 'a', 'r', 'd', '_', 'n', 'a', 'm', 'e'], .list [['s', 'u', 'r', 'f', 'a', 'c', 'e', '_', 'd', 'o', 'w', 'n', 'w', 'a', 'r', 'd', '_', 'e', 'a', 's', 't', 'w', 'a', 'r', 'd', '_', 's', 't', 'r', 'e', 's', 's'], ['s', 'u', 'r', 'f', 'a', 'c', 'e', '_', 'e', 'a', 's', 't', 'w', 'a', 'r', 'd', '_', 's', 't', 'r', 'e', 's', 's'], ['s', 'u', 'r', 'f', 'a', 'c', 'e', '_', 'd', 'o', 'w', 'n', 'w', 'a', 'r', 'd', '_', 'x', '_', 's', 't', 'r', 'e', 's', 's']]), (['l', 'o', 'n', 'g', '_', 'n', 'a', 'm', 'e'], .list [['S', 'u', 'r', 'f', 'a', 'c', 'e', ' ', 'e', 'a', 's', 't', 'w', 'a', 'r', 'd', ' ', 'w', 'i', 'n', 'd', ' ', 's', 't', 'r', 'e', 's', 's']]), (['u', 'n', 'i', 't', 's'], .list [['N', ' ', 'm', '-', '2'], ['P', 'a']]), (['c', 'm', 'a', 'p'], .text ['c', 'm', 'o', '.', 'd', 'i', 'f', 'f', ':', 'p', 'i', 'v', '0'])],
    ['s', 'n']⟩),
  -- tauv
  (['t', 'a', 'u', 'v'], ⟨[],
    [(['s', 't', 'a', 'n', 'd', 'a', 'r', 'd', '_', 'n', 'a', 'm', 'e'], .list [['s', 'u', 'r', 'f', 'a', 'c', 'e', '_', 'd', 'o', 'w', 'n', 'w', 'a', 'r', 'd', '_', 'n', 'o', 'r', 't', 'h', 'w', 'a', 'r', 'd', '_', 's', 't', 'r', 'e', 's', 's'], ['s', 'u', 'r', 'f', 'a', 'c', 'e', '_', 'n', 'o', 'r', 't', 'h', 'w', 'a', 'r', 'd', '_', 's', 't', 'r', 'e', 's', 's'], ['s', 'u', 'r', 'f', 'a', 'c', 'e', '_', 'd', 'o', 'w', 'n', 'w', 'a', 'r', 'd', '_', 'y', '_', 's', 't', 'r', 'e', 's', 's']]), (['l', 'o', 'n', 'g', '_', 'n', 'a', 'm', 'e'], .list [['S', 'u', 'r', 'f', 'a', 'c', 'e', ' ', 'n', 'o', 'r', 't', 'h', 'w', 'a', 'r', 'd', ' ', 'w', 'i', 'n', 'd', ' ', 's', 't', 'r', 'e', 's', 's']]), (['u', 'n', 'i', 't', 's'], .list [['N', ' ', 'm', '-', '2'], ['P', 'a']])],
    ['s', 'n']⟩),
  -- taux
  (['t', 'a', 'u', 'x'], ⟨[['u', 's', 't', 'r', 'e', 's', 's']],
    [(['s', 't', 'a', 'n', 'd', 'a', 'r', 'd', '_', 'n', 'a', 'm', 'e'], .list [['s', 'u', 'r', 'f', 'a', 'c', 'e', '_', 'd', 'o', 'w', 'n', 'w', 'a', 'r', 'd', '_', 'x', '_', 's', 't', 'r', 'e', 's', 's'], ['s', 'u', 'r', 'f', 'a', 'c', 'e', '_', 'x', '_', 's', 't', 'r', 'e', 's', 's'], ['s', 'u', 'r', 'f', 'a', 'c', 'e', '_', 'd', 'o', 'w', 'n', 'w', 'a', 'r', 'd', '_', 'x', '_', 's', 't', 'r', 'e', 's', 's', '_', 'a', 't', '_', 'u', '_', 'l', 'o', 'c', 'a', 't', 'i', 'o', 'n']]), (['l', 'o', 'n', 'g', '_', 'n', 'a', 'm', 'e'], .list [['S', 'u', 'r', 'f', 'a', 'c', 'e', ' ', 'w', 'i', 'n', 'd', ' ', 's', 't', 'r', 'e', 's', 's', ' ', 'a', 'l', 'o', 'n', 'g', ' ', 'X']]), (['u', 'n', 'i', 't', 's'], .list [['N', ' ', 'm', '-', '2']])],
    ['s', 'n']⟩),
  -- tauy
  (['t', 'a', 'u', 'y'], ⟨[['v', 's', 't', 'r', 'e', 's', 's']],
    [(['s', 't', 'a', 'n', 'd', 'a', 'r', 'd', '_', 'n', 'a', 'm', 'e'], .list [['s', 'u', 'r', 'f', 'a', 'c', 'e', '_', 'd', 'o', 'w', 'n', 'w', 'a', 'r', 'd', '_', 'y', '_', 's', 't', 'r', 'e', 's', 's'], ['s', 'u', 'r', 'f', 'a', 'c', 'e', '_', 'y', '_', 's', 't', 'r', 'e', 's', 's'], ['s', 'u', 'r', 'f', 'a', 'c', 'e', '_', 'd', 'o', 'w', 'n', 'w', 'a', 'r', 'd', '_', 'y', '_', 's', 't', 'r', 'e', 's', 's', '_', 'a', 't', '_', 'v', '_', 'l', 'o', 'c', 'a', 't', 'i', 'o', 'n']]), (['l', 'o', 'n', 'g', '_', 'n', 'a', 'm', 'e'], .list [['S', 'u', 'r', 'f', 'a', 'c', 'e', ' ', 'w', 'i', 'n', 'd', ' ', 's', 't', 'r', 'e', 's', 's', ' ', 'a', 'l', 'o', 'n', 'g', ' ', 'Y']]), (['u', 'n', 'i', 't', 's'], .list [['N', ' ', 'm', '-', '2']])],
    ['s', 'n']⟩),
  -- topheight
  (['t', 'o', 'p', 'h', 'e', 'i', 'g', 'h', 't'], ⟨[],
    [(['s', 't', 'a', 'n', 'd', 'a', 'r', 'd', '_', 'n', 'a', 'm', 'e'], .list [['m', 'a', 'x', 'i', 'm', 'u', 'm', '_', 'h', 'e', 'i', 'g', 'h', 't'], ['h', 'e', 'i', 'g', 'h', 't', '_', 'a', 'b', 'o', 'v', 'e', '_', 'g', 'e', 'o', 'p', 'o', 't', 'e', 'n', 't', 'i', 'a', 'l', '_', 'd', 'a', 't', 'u', 'm', '_', 'a', 't', '_', 't', 'o', 'p', '_', 'o', 'f', '_', 'a', 't', 'm', 'o', 's', 'p', 'h', 'e', 'r', 'e', '_', 'm', 'o', 'd', 'e', 'l']]), (['l', 'o', 'n', 'g', '_', 'n', 'a', 'm', 'e'], .list [['h', 'e', 'i', 'g', 'h', 't', ' ', 'o', 'f', ' ', 't', 'h', 'e', ' ', 't', 'o', 'p', ' ', 'l', 'e', 'v', 'e', 'l']]), (['u', 'n', 'i', 't', 's'], .list [['m']])],
    ['s', 'n']⟩),
  -- hs
  (['h', 's'], ⟨[['h', 'm', '0']],
    [(['s', 't', 'a', 'n', 'd', 'a', 'r', 'd', '_', 'n', 'a', 'm', 'e'], .list [['s', 'e', 'a', '_', 's', 'u', 'r', 'f', 'a', 'c', 'e', '_', 'w', 'a', 'v', 'e', '_', 's', 'i', 'g', 'n', 'i', 'f', 'i', 'c', 'a', 'n', 't', '_', 'h', 'e', 'i', 'g', 'h', 't'], ['s', 'i', 'g', 'n', 'i', 'f', 'i', 'c', 'a', 'n', 't', '_', 'h', 'e', 'i', 'g', 'h', 't', '_', 'o', 'f', '_', 'w', 'i', 'n', 'd', '_', 'a', 'n', 'd', '_', 's', 'w', 'e', 'l', 'l', '_', 'w', 'a', 'v', 'e', 's']]), (['l', 'o', 'n', 'g', '_', 'n', 'a', 'm', 'e'], .list [['S', 'i', 'g', 'n', 'i', 'f', 'i', 'c', 'a', 'n', 't', ' ', 'w', 'a', 'v', 'e', ' ', 'h', 'e', 'i', 'g', 'h', 't'], ['S', 'i', 'g', 'n', 'i', 'f', 'i', 'c', 'a', 'n', 't', ' ', 'h', 'e', 'i', 'g', 'h', 't', ' ', 'o', 'f', ' ', 'w', 'i', 'n', 'd', ' ', 'a', 'n', 'd', ' ', 's', 'w', 'e', 'l', 'l', ' ', 'w', 'a', 'v', 'e', 's']]), (['u', 'n', 'i', 't', 's'], .list [['m']])],
    ['s', 'n']⟩),
  -- mssx
  (['m', 's', 's', 'x'], ⟨[],
    [(['s', 't', 'a', 'n', 'd', 'a', 'r', 'd', '_', 'n', 'a', 'm', 'e'], .list [['e', 'a', 's', 't', 'w', 'a', 'r', 'd', '_', 'm', 'e', 'a', 'n', '_', 's', 'q', 'u', 'a', 'r', 'e', '_', 's', 'l', 'o', 'p', 'e'], ['x', '_', 'm', 'e', 'a', 'n', '_', 's', 'q', 'u', 'a', 'r', 'e', '_', 's', 'l', 'o', 'p', 'e']]), (['l', 'o', 'n', 'g', '_', 'n', 'a', 'm', 'e'], .list [['E', 'a', 's', 't', 'w', 'a', 'r', 'd', ' ', 'm', 'e', 'a', 'n', ' ', 's', 'q', 'u', 'a', 'r', 'e', ' ', 's', 'l', 'o', 'p', 'e']]), (['u', 'n', 'i', 't', 's'], .list [['m', ' ', 'm', '-', '1']])],
    ['s', 'n']⟩),
  -- mssy
  (['m', 's', 's', 'y'], ⟨[],
    [(['s', 't', 'a', 'n', 'd', 'a', 'r', 'd', '_', 'n', 'a', 'm', 'e'], .list [['n', 'o', 'r', 't', 'w', 'a', 'r', 'd', '_', 'm', 'e', 'a', 'n', '_', 's', 'q', 'u', 'a', 'r', 'e', '_', 's', 'l', 'o', 'p', 'e'], ['y', '_', 'm', 'e', 'a', 'n', '_', 's', 'q', 'u', 'a', 'r', 'e', '_', 's', 'l', 'o', 'p', 'e']]), (['l', 'o', 'n', 'g', '_', 'n', 'a', 'm', 'e'], .list [['N', 'o', 'r', 't', 'h', 'w', 'a', 'r', 'd', ' ', 'm', 'e', 'a', 'n', ' ', 's', 'q', 'u', 'a', 'r', 'e', ' ', 's', 'l', 'o', 'p', 'e']]), (['u', 'n', 'i', 't', 's'], .list [['m', ' ', 'm', '-', '1']])],
    ['s', 'n']⟩),
  -- mss
  (['m', 's', 's'], ⟨[['m', 's', 's']],
    [(['s', 't', 'a', 'n', 'd', 'a', 'r', 'd', '_', 'n', 'a', 'm', 'e'], .list [['m', 'e', 'a', 'n', '_', 's', 'q', 'u', 'a', 'r', 'e', '_', 's', 'l', 'o', 'p', 'e']]), (['l', 'o', 'n', 'g', '_', 'n', 'a', 'm', 'e'], .list [['m', 'e', 'a', 'n', ' ', 's', 'q', 'u', 'a', 'r', 'e', ' ', 's', 'l', 'o', 'p', 'e']]), (['u', 'n', 'i', 't', 's'], .list [['m', ' ', 'm', '-', '1']])],
    ['s', 'n']⟩),
  -- mlw
  (['m', 'l', 'w'], ⟨[],
    [(['s', 't', 'a', 'n', 'd', 'a', 'r', 'd', '_', 'n', 'a', 'm', 'e'], .list [['m', 'e', 'a', 'n', '_', 'w', 'a', 'v', 'e', '_', 'l', 'e', 'n', 'g', 't', 'h']]), (['l', 'o', 'n', 'g', '_', 'n', 'a', 'm', 'e'], .list [['M', 'e', 'a', 'n', ' ', 'w', 'a', 'v', 'e', ' ', 'l', 'e', 'n', 'g', 't', 'h']]), (['u', 'n', 'i', 't', 's'], .list [['m']])],
    ['s', 'n']⟩),
  -- t0m1
  (['t', '0', 'm', '1'], ⟨[],
    [(['s', 't', 'a', 'n', 'd', 'a', 'r', 'd', '_', 'n', 'a', 'm', 'e'], .list [['s', 'e', 'a', '_', 's', 'u', 'r', 'f', 'a', 'c', 'e', '_', 'w', 'i', 'n', 'd', '_', 'w', 'a', 'v', 'e', '_', 'm', 'e', 'a', 'n', '_', 'p', 'e', 'r', 'i', 'o', 'd', '_', 'f', 'r', 'o', 'm', '_', 'v', 'a', 'r', 'i', 'a', 'n', 'c', 'e', '_', 's', 'p', 'e', 'c', 't', 'r', 'a', 'l', '_', 'd', 'e', 'n', 's', 'i', 't', 'y', '_', 'i', 'n', 'v', 'e', 'r', 's', 'e', '_', 'f', 'r', 'e', 'q', 'u', 'e', 'n', 'c', 'y', '_', 'm', 'o', 'm', 'e', 'n', 't']]), (['l', 'o', 'n', 'g', '_', 'n', 'a', 'm', 'e'], .list [['M', 'e', 'a', 'n', ' ', 'w', 'a', 'v', 'e', ' ', 'p', 'e', 'r', 'i', 'o', 'd']]), (['u', 'n', 'i', 't', 's'], .list [['s']]), (['c', 'm', 'a', 'p'], .text ['c', 'm', 'o', '.', 't', 'e', 'm', 'p', 'o'])],
    ['s', 'n']⟩),
  -- dp
  (['d', 'p'], ⟨[['d', 'p']],
    [(['s', 't', 'a', 'n', 'd', 'a', 'r', 'd', '_', 'n', 'a', 'm', 'e'], .list [['s', 'e', 'a', '_', 's', 'u', 'r', 'f', 'a', 'c', 'e', '_', 'w', 'a', 'v', 'e', '_', 'p', 'e', 'a', 'k', '_', 'd', 'i', 'r', 'e', 'c', 't', 'i', 'o', 'n']]), (['l', 'o', 'n', 'g', '_', 'n', 'a', 'm', 'e'], .list [['P', 'e', 'a', 'k', ' ', 'd', 'i', 'r', 'e', 'c', 't', 'i', 'o', 'n']]), (['u', 'n', 'i', 't', 's'], .list [['d', 'e', 'g', 'r', 'e', 'e', 's']])],
    ['s', 'n']⟩),
  -- tp
  (['t', 'p'], ⟨[],
    [(['s', 't', 'a', 'n', 'd', 'a', 'r', 'd', '_', 'n', 'a', 'm', 'e'], .list [['s', 'e', 'a', '_', 's', 'u', 'r', 'f', 'a', 'c', 'e', '_', 'w', 'a', 'v', 'e', '_', 'p', 'e', 'a', 'k', '_', 'p', 'e', 'r', 'i', 'o', 'd']]), (['l', 'o', 'n', 'g', '_', 'n', 'a', 'm', 'e'], .list [['P', 'e', 'a', 'k', ' ', 'p', 'e', 'r', 'i', 'o', 'd']]), (['u', 'n', 'i', 't', 's'], .list [['s']])],
    ['s', 'n']⟩),
  -- fp
  (['f', 'p'], ⟨[],
    [(['s', 't', 'a', 'n', 'd', 'a', 'r', 'd', '_', 'n', 'a', 'm', 'e'], .list [['p', 'e', 'a', 'k', '_', 'f', 'r', 'e', 'q', 'u', 'e', 'n', 'c', 'y', '_', 'o', 'f', '_', 'w', 'i', 'n', 'd', '_', 'a', 'n', 'd', '_', 's', 'w', 'e', 'l', 'l', '_', 'w', 'a', 'v', 'e', 's']]), (['l', 'o', 'n', 'g', '_', 'n', 'a', 'm', 'e'], .list [['P', 'e', 'a', 'k', ' ', 'f', 'r', 'e', 'q', 'u', 'e', 'n', 'c', 'y'], ['F', 'r', 'e', 'q', 'u', 'e', 'n', 'c', 'y', ' ', 'o', 'f', ' ', 'w', 'i', 'n', 'd', ' ', 'a', 'n', 'd', ' ', 's', 'w', 'e', 'l', 'l', ' ', 'w', 'a', 'v', 'e', 's', ' ', 'a', 't', ' ', 's', 'p', 'e', 'c', 't', 'r', 'a', 'l', ' ', 'p', 'e', 'a', 'k']]), (['u', 'n', 'i', 't', 's'], .list [['s', '-', '1']])],
    ['s', 'n']⟩),
  -- th1p
  (['t', 'h', '1', 'p'], ⟨[['d', 'i', 'r']],
    [(['s', 't', 'a', 'n', 'd', 'a', 'r', 'd', '_', 'n', 'a', 'm', 'e'], .list [['s', 'e', 'a', '_', 's', 'u', 'r', 'f', 'a', 'c', 'e', '_', 'w', 'a', 'v', 'e', '_', 'f', 'r', 'o', 'm', '_', 'd', 'i', 'r', 'e', 'c', 't', 'i', 'o', 'n']]), (['l', 'o', 'n', 'g', '_', 'n', 'a', 'm', 'e'], .list [['M', 'e', 'a', 'n', ' ', 'w', 'a', 'v', 'e', ' ', 'd', 'i', 'r', 'e', 'c', 't', 'i', 'o', 'n'], ['M', 'e', 'a', 'n', ' ', 'd', 'i', 'r', 'e', 'c', 't', 'i', 'o', 'n', ' ', 'o', 'f', ' ', 'w', 'i', 'n', 'd', ' ', 'a', 'n', 'd', ' ', 's', 'w', 'e', 'l', 'l', ' ', 'w', 'a', 'v', 'e', 's', ' ', 'a', 't', ' ', 's', 'p', 'e', 'c', 't', 'r', 'a', 'l', ' ', 'p', 'e', 'a', 'k']]), (['u', 'n', 'i', 't', 's'], .list [['d', 'e', 'g', 'r', 'e', 'e']])],
    ['s', 'n']⟩),
  -- char
  (['c', 'h', 'a', 'r'], ⟨[['c', 'h', 'a']],
    [(['s', 't', 'a', 'n', 'd', 'a', 'r', 'd', '_', 'n', 'a', 'm', 'e'], .list [['c', 'h', 'a', 'r', 'n', 'o', 'c', 'k', '_', 'c', 'o', 'e', 'f', 'f', 'i', 'c', 'i', 'e', 'n', 't', '_', 'f', 'o', 'r', '_', 's', 'u', 'r', 'f', 'a', 'c', 'e', '_', 'r', 'o', 'u', 'g', 'h', 'n', 'e', 's', 's', '_', 'l', 'e', 'n', 'g', 't', 'h', '_', 'f', 'o', 'r', '_', 'm', 'o', 'm', 'e', 'n', 't', 'u', 'm', '_', 'i', 'n', '_', 'a', 'i', 'r']]), (['l', 'o', 'n', 'g', '_', 'n', 'a', 'm', 'e'], .list [['C', 'h', 'a', 'r', 'n', 'o', 'c', 'k', ' ', 'c', 'o', 'e', 'f', 'f', 'i', 'c', 'i', 'e', 'n', 't', ' ', 'f', 'o', 'r', ' ', 's', 'u', 'r', 'f', 'a', 'c', 'e', ' ', 'r', 'o', 'u', 'g', 'h', 'n', 'e', 's', 's', ' ', 'l', 'e', 'n', 'g', 't', 'h', ' ', 'f', 'o', 'r', ' ', 'm', 'o', 'm', 'e', 'n', 't', 'u', 'm', ' ', 'i', 'n', ' ', 'a', 'i', 'r']]), (['u', 'n', 'i', 't', 's'], .list [])],
    ['s', 'n']⟩),
  -- ubr
  (['u', 'b', 'r'], ⟨[],
    [(['s', 't', 'a', 'n', 'd', 'a', 'r', 'd', '_', 'n', 'a', 'm', 'e'], .list [['r', 'm', 's', '_', 'a', 'm', 'p', 'l', 'i', 't', 'u', 'd', 'e', '_', 'o', 'f', '_', 'o', 'r', 'b', 'i', 't', 'a', 'l', '_', 'b', 'o', 't', 't', 'o', 'm', '_', 'v', 'e', 'l', 'o', 'c', 'i', 't', 'y', '_', 'o', 'f', '_', 'w', 'i', 'n', 'd', '_', 'a', 'n', 'd', '_', 's', 'w', 'e', 'l', 'l', '_', 'w', 'a', 'v', 'e', 's']]), (['l', 'o', 'n', 'g', '_', 'n', 'a', 'm', 'e'], .list [['N', 'e', 'a', 'r', ' ', 'b', 'o', 't', 't', 'o', 'm', ' ', 'r', 'm', 's', ' ', 'v', 'e', 'l', 'o', 'c', 'i', 't', 'i', 'e', 's']]), (['u', 'n', 'i', 't', 's'], .list [['m', ' ', 's', '-', '1']])],
    ['s', 'n']⟩),
  -- uubr
  (['u', 'u', 'b', 'r'], ⟨[],
    [(['s', 't', 'a', 'n', 'd', 'a', 'r', 'd', '_', 'n', 'a', 'm', 'e'], .list [['r', 'm', 's', '_', 'o', 'f', '_', 'b', 'o', 't', 't', 'o', 'm', '_', 'z', 'o', 'n', 'a', 'l', '_', 'v', 'e', 'l', 'o', 'c', 'i', 't', 'y', '_', 'a', 'm', 'p', 'l', 'i', 't', 'u', 'd', 'e']]), (['l', 'o', 'n', 'g', '_', 'n', 'a', 'm', 'e'], .list [['R', 'm', 's', ' ', 'o', 'f', ' ', 'n', 'e', 'a', 'r', ' ', 'b', 'o', 't', 't', 'o', 'm', ' ', 'z', 'o', 'n', 'a', 'l', ' ', 'v', 'e', 'l', 'o', 'c', 'i', 't', 'i', 'e', 's']]), (['u', 'n', 'i', 't', 's'], .list [['m', ' ', 's', '-', '1']])],
    ['s', 'n']⟩),
  -- vubr
  (['v', 'u', 'b', 'r'], ⟨[],
    [(['s', 't', 'a', 'n', 'd', 'a', 'r', 'd', '_', 'n', 'a', 'm', 'e'], .list [['r', 'm', 's', '_', 'o', 'f', '_', 'b', 'o', 't', 't', 'o', 'm', '_', 'm', 'e', 'r', 'i', 'd', 'i', 'o', 'n', 'a', 'l', '_', 'v', 'e', 'l', 'o', 'c', 'i', 't', 'y', '_', 'a', 'm', 'p', 'l', 'i', 't', 'u', 'd', 'e']]), (['l', 'o', 'n', 'g', '_', 'n', 'a', 'm', 'e'], .list [['R', 'm', 's', ' ', 'o', 'f', ' ', 'n', 'e', 'a', 'r', ' ', 'b', 'o', 't', 't', 'o', 'm', ' ', 'm', 'e', 'r', 'i', 'd', 'i', 'o', 'n', 'a', 'l', ' ', 'v', 'e', 'l', 'o', 'c', 'i', 't', 'i', 'e', 's']]), (['u', 'n', 'i', 't', 's'], .list [['m', ' ', 's', '-', '1']])],
    ['s', 'n']⟩),
  -- bhd
  (['b', 'h', 'd'], ⟨[],
    [(['s', 't', 'a', 'n', 'd', 'a', 'r', 'd', '_', 'n', 'a', 'm', 'e'], .list [['b', 'e', 'r', 'n', 'o', 'u', 'l', 'l', 'i', '_', 'h', 'e', 'a', 'd', '_', 'p', 'r', 'e', 's', 's', 'u', 'r', 'e', '_', 'o', 'f', '_', 'w', 'i', 'n', 'd', '_', 'a', 'n', 'd', '_', 's', 'w', 'e', 'l', 'l', '_', 'w', 'a', 'v', 'e', 's']]), (['l', 'o', 'n', 'g', '_', 'n', 'a', 'm', 'e'], .list [['R', 'a', 'd', 'i', 'a', 't', 'i', 'o', 'n', ' ', 'p', 'r', 'e', 's', 's', 'u', 'r', 'e', ' ', '(', 'B', 'e', 'r', 'n', 'o', 'u', 'l', 'l', 'i', ' ', 'h', 'e', 'a', 'd', ')']]), (['u', 'n', 'i', 't', 's'], .list [['N', ' ', 's', '-', '1']])],
    ['s', 'n']⟩),
  -- foc
  (['f', 'o', 'c'], ⟨[['p', 'h', 'i', 'o', 'c']],
    [(['s', 't', 'a', 'n', 'd', 'a', 'r', 'd', '_', 'n', 'a', 'm', 'e'], .list [['t', 'u', 'r', 'b', 'u', 'l', 'e', 'n', 't', '_', 'k', 'i', 'n', 'e', 't', 'i', 'c', '_', 'e', 'n', 'e', 'r', 'g', 'y', '_', 'f', 'l', 'u', 'x', '_', 'i', 'n', 't', 'o', '_', 's', 'e', 'a', '_', 'w', 'a', 't', 'e', 'r', '_', 'd', 'u', 'e', '_', 't', 'o', '_', 's', 'u', 'r', 'f', 'a', 'c', 'e', '_', 'd', 'i', 's', 's', 'i', 'p', 'a', 't', 'i', 'o', 'n', '_', 'w', 'a', 'v', 'e']]), (['l', 'o', 'n', 'g', '_', 'n', 'a', 'm', 'e'], .list [['W', 'a', 'v', 'e', ' ', 'm', 'i', 'x', 'i', 'n', 'g', ' ', 'k', 'i', 'n', 'e', 't', 'i', 'c', ' ', 't', 'u', 'r', 'b', 'u', 'l', 'e', 'n', 't', ' ', 'e', 'n', 'e', 'r', 'g', 'y', ' ', 'd', 'u', 'e', ' ', 't', 'o', ' ', 's', 'u', 'r', 'f', 'a', 'c', 'e', ' ', 'b', 'r', 'e', 'a', 'k', 'i', 'n', 'g', ' ', 'w', 'a', 'v', 'e']]), (['u', 'n', 'i', 't', 's'], .list [['W', ' ', 'm', '-', '2'], ['m', '3', ' ', 's', '-', '3']])],
    ['s', 'n']⟩),
  -- utwo
  (['u', 't', 'w', 'o'], ⟨[['t', 'a', 'u', 'o', 'x']],
    [(['s', 't', 'a', 'n', 'd', 'a', 'r', 'd', '_', 'n', 'a', 'm', 'e'], .list [['x', '_', 'c', 'o', 'm', 'p', 'o', 'n', 'e', 'n', 't', '_', 'o', 'f', '_', 's', 'u', 'r', 'f', 'a', 'c', 'e', '_', 'w', 'a', 'v', 'e', '_', 'o', 'c', 'e', 'a', 'n', '_', 'm', 'o', 'm', 'e', 'n', 't', 'u', 'm', '_', 'f', 'l', 'u', 'x'], ['n', 'o', 'r', 't', 'h', 'w', 'a', 'r', 'd', '_', 'w', 'a', 'v', 'e', '_', 't', 'o', '_', 'o', 'c', 'e', 'a', 'n', '_', 's', 't', 'r', 'e', 's', 's']]), (['l', 'o', 'n', 'g', '_', 'n', 'a', 'm', 'e'], .list [['Z', 'o', 'n', 'a', 'l', ' ', 'c', 'o', 'm', 'p', 'o', 'n', 'e', 'n', 't', ' ', 'o', 'f', ' ', 't', 'h', 'e', ' ', 's', 'u', 'r', 'f', 'a', 'c', 'e', ' ', 'w', 'a', 'v', 'e', '-', 'o', 'c', 'e', 'a', 'n', ' ', 'm', 'o', 'm', 'e', 'n', 't', 'u', 'm', ' ', 'f', 'l', 'u', 'x']]), (['u', 'n', 'i', 't', 's'], .list [['m', '2', ' ', 's', '-', '2']])],
    ['s', 'n']⟩),
  -- vtwo
  (['v', 't', 'w', 'o'], ⟨[['t', 'a', 'u', 'o', 'y']],
    [(['s', 't', 'a', 'n', 'd', 'a', 'r', 'd', '_', 'n', 'a', 'm', 'e'], .list [['y', '_', 'c', 'o', 'm', 'p', 'o', 'n', 'e', 'n', 't', '_', 'o', 'f', '_', 's', 'u', 'r', 'f', 'a', 'c', 'e', '_', 'w', 'a', 'v', 'e', '_', 'o', 'c', 'e', 'a', 'n', '_', 'm', 'o', 'm', 'e', 'n', 't', 'u', 'm', '_', 'f', 'l', 'u', 'x'], ['n', 'o', 'r', 't', 'h', 'w', 'a', 'r', 'd', '_', 'w', 'a', 'v', 'e', '_', 't', 'o', '_', 'o', 'c', 'e', 'a', 'n', '_', 's', 't', 'r', 'e', 's', 's']]), (['l', 'o', 'n', 'g', '_', 'n', 'a', 'm', 'e'], .list [['M', 'e', 'r', 'i', 'd', 'i', 'o', 'n', 'a', 'l', ' ', 'c', 'o', 'm', 'p', 'o', 'n', 'e', 'n', 't', ' ', 'o', 'f', ' ', 't', 'h', 'e', ' ', 's', 'u', 'r', 'f', 'a', 'c', 'e', ' ', 'w', 'a', 'v', 'e', '-', 'o', 'c', 'e', 'a', 'n', ' ', 'm', 'o', 'm', 'e', 'n', 't', 'u', 'm', ' ', 'f', 'l', 'u', 'x']]), (['u', 'n', 'i', 't', 's'], .list [['m', '2', ' ', 's', '-', '2']])],
    ['s', 'n']⟩),
  -- utaw
  (['u', 't', 'a', 'w'], ⟨[],
    [(['s', 't', 'a', 'n', 'd', 'a', 'r', 'd', '_', 'n', 'a', 'm', 'e'], .list [['x', '_', 'c', 'o', 'm', 'p', 'o', 'n', 'e', 'n', 't', '_', 'o', 'f', '_', 'w', 'a', 'v', 'e', '_', 's', 'u', 'p', 'p', 'o', 'r', 't', 'e', 'd', '_', 'w', 'i', 'n', 'd', '_', 's', 't', 'r', 'e', 's', 's']]), (['l', 'o', 'n', 'g', '_', 'n', 'a', 'm', 'e'], .list [['E', 'a', 's', 't', 'w', 'a', 'r', 'd', ' ', 'w', 'a', 'v', 'e', ' ', 's', 'u', 'p', 'p', 'o', 'r', 't', 'e', 'd', ' ', 'w', 'i', 'n', 'd', ' ', 's', 't', 'r', 'e', 's', 's'], ['Z', 'o', 'n', 'a', 'l', ' ', 'c', 'o', 'm', 'p', 'o', 'n', 'e', 'n', 't', ' ', 'o', 'f', ' ', 't', 'h', 'e', ' ', 'a', 't', 'm', 'o', 's', 'p', 'h', 'e', 'r', 'e', '-', 'w', 'a', 'v', 'e', ' ', 'm', 'o', 'm', 'e', 'n', 't', 'u', 'm', ' ', 'f', 'l', 'u', 'x']]), (['u', 'n', 'i', 't', 's'], .list [['m', '2', ' ', 's', '-', '2']])],
    ['s', 'n']⟩),
  -- vtaw
  (['v', 't', 'a', 'w'], ⟨[],
    [(['s', 't', 'a', 'n', 'd', 'a', 'r', 'd', '_', 'n', 'a', 'm', 'e'], .list [['y', '_', 'c', 'o', 'm', 'p', 'o', 'n', 'e', 'n', 't', '_', 'o', 'f', '_', 'w', 'a', 'v', 'e', '_', 's', 'u', 'p', 'p', 'o', 'r', 't', 'e', 'd', '_', 'w', 'i', 'n', 'd', '_', 's', 't', 'r', 'e', 's', 's']]), (['l', 'o', 'n', 'g', '_', 'n', 'a', 'm', 'e'], .list [['N', 'o', 'r', 't', 'h', 'w', 'a', 'r', 'd', ' ', 'w', 'a', 'v', 'e', ' ', 's', 'u', 'p', 'p', 'o', 'r', 't', 'e', 'd', ' ', 'w', 'i', 'n', 'd', ' ', 's', 't', 'r', 'e', 's', 's'], ['M', 'e', 'r', 'i', 'd', 'i', 'o', 'n', 'a', 'l', ' ', 'c', 'o', 'm', 'p', 'o', 'n', 'e', 'n', 't', ' ', 'o', 'f', ' ', 't', 'h', 'e', ' ', 'a', 't', 'm', 'o', 's', 'p', 'h', 'e', 'r', 'e', '-', 'w', 'a', 'v', 'e', ' ', 'm', 'o', 'm', 'e', 'n', 't', 'u', 'm', ' ', 'f', 'l', 'u', 'x']]), (['u', 'n', 'i', 't', 's'], .list [['m', '2', ' ', 's', '-', '2']])],
    ['s', 'n']⟩),
  -- fbb
  (['f', 'b', 'b'], ⟨[],
    [(['s', 't', 'a', 'n', 'd', 'a', 'r', 'd', '_', 'n', 'a', 'm', 'e'], .list [['w', 'a', 'v', 'e', '_', 'e', 'n', 'e', 'r', 'g', 'y', '_', 'd', 'i', 's', 's', 'i', 'p', 'a', 't', 'i', 'o', 'n', '_', 'i', 'n', '_', 'b', 'o', 't', 't', 'o', 'm', '_', 'b', 'o', 'u', 'n', 'd', 'a', 'r', 'y', '_', 'l', 'a', 'y', 'e', 'r']]), (['l', 'o', 'n', 'g', '_', 'n', 'a', 'm', 'e'], .list [['W', 'a', 'v', 'e', ' ', 'd', 'i', 's', 's', 'i', 'p', 'a', 't', 'i', 'o', 'n', ' ', 'i', 'n', ' ', 'b', 'o', 't', 't', 'o', 'm', ' ', 'b', 'o', 'u', 'n', 'd', 'a', 'r', 'y', ' ', 'l', 'a', 'y', 'e', 'r']]), (['u', 'n', 'i', 't', 's'], .list [['W', ' ', 'm', '-', '2']])],
    ['s', 'n']⟩),
  -- utbb
  (['u', 't', 'b', 'b'], ⟨[],
    [(['s', 't', 'a', 'n', 'd', 'a', 'r', 'd', '_', 'n', 'a', 'm', 'e'], .list [['x', '_', 'c', 'o', 'm', 'p', 'o', 'n', 'e', 'n', 't', '_', 'o', 'f', '_', 'b', 'o', 't', 't', 'o', 'm', '_', 'w', 'a', 'v', 'e', '_', 'o', 'c', 'e', 'a', 'n', '_', 'm', 'o', 'm', 'e', 'n', 't', 'u', 'm', '_', 'f', 'l', 'u', 'x'], ['e', 'a', 's', 't', 'w', 'a', 'r', 'd', '_', 'w', 'a', 'v', 'e', '_', 't', 'o', '_', 'b', 'o', 't', 't', 'o', 'm', '_', 'b', 'o', 'u', 'n', 'd', 'a', 'r', 'y', '_', 'l', 'a', 'y', 'e', 'r', '_', 's', 't', 'r', 'e', 's', 's']]), (['l', 'o', 'n', 'g', '_', 'n', 'a', 'm', 'e'], .list [['Z', 'o', 'n', 'a', 'l', ' ', 'c', 'o', 'm', 'p', 'o', 'n', 'e', 'n', 't', ' ', 'o', 'f', ' ', 't', 'h', 'e', ' ', 'b', 'o', 't', 't', 'o', 'm', ' ', 'w', 'a', 'v', 'e', '-', 'o', 'c', 'e', 'a', 'n', ' ', 'm', 'o', 'm', 'e', 'n', 't', 'u', 'm', ' ', 'f', 'l', 'u', 'x']]), (['u', 'n', 'i', 't', 's'], .list [['m', '2', ' ', 's', '-', '2']])],
    ['s', 'n']⟩),
  -- vtbb
  (['v', 't', 'b', 'b'], ⟨[],
    [(['s', 't', 'a', 'n', 'd', 'a', 'r', 'd', '_', 'n', 'a', 'm', 'e'], .list [['y', '_', 'c', 'o', 'm', 'p', 'o', 'n', 'e', 'n', 't', '_', 'o', 'f', '_', 'b', 'o', 't', 't', 'o', 'm', '_', 'w', 'a', 'v', 'e', '_', 'o', 'c', 'e', 'a', 'n', '_', 'm', 'o', 'm', 'e', 'n', 't', 'u', 'm', '_', 'f', 'l', 'u', 'x'], ['n', 'o', 'r', 't', 'h', 'w', 'a', 'r', 'd', '_', 'w', 'a', 'v', 'e', '_', 't', 'o', '_', 'b', 'o', 't', 't', 'o', 'm', '_', 'b', 'o', 'u', 'n', 'd', 'a', 'r', 'y', '_', 'l', 'a', 'y', 'e', 'r', '_', 's', 't', 'r', 'e', 's', 's']]), (['l', 'o', 'n', 'g', '_', 'n', 'a', 'm', 'e'], .list [['M', 'e', 'r', 'i', 'd', 'i', 'o', 'n', 'a', 'l', ' ', 'c', 'o', 'm', 'p', 'o', 'n', 'e', 'n', 't', ' ', 'o', 'f', ' ', 't', 'h', 'e', ' ', 'b', 'o', 't', 't', 'o', 'm', ' ', 'w', 'a', 'v', 'e', '-', 'o', 'c', 'e', 'a', 'n', ' ', 'm', 'o', 'm', 'e', 'n', 't', 'u', 'm', ' ', 'f', 'l', 'u', 'x']]), (['u', 'n', 'i', 't', 's'], .list [['m', '2', ' ', 's', '-', '2']])],
    ['s', 'n']⟩),
  -- uuss
  (['u', 'u', 's', 's'], ⟨[],
    [(['s', 't', 'a', 'n', 'd', 'a', 'r', 'd', '_', 'n', 'a', 'm', 'e'], .list [['e', 'a', 's', 't', 'w', 'a', 'r', 'd', '_', 's', 'u', 'r', 'f', 'a', 'c', 'e', '_', 's', 't', 'o', 'k', 'e', 's', '_', 'd', 'r', 'i', 'f', 't']]), (['l', 'o', 'n', 'g', '_', 'n', 'a', 'm', 'e'], .list [['E', 'a', 's', 't', 'w', 'a', 'r', 'd', ' ', 's', 'u', 'r', 'f', 'a', 'c', 'e', ' ', 's', 't', 'o', 'k', 'e', 's', ' ', 'd', 'r', 'i', 'f', 't']]), (['u', 'n', 'i', 't', 's'], .list [['m', ' ', 's', '-', '1']])],
    ['s', 'n']⟩),
  -- vuss
  (['v', 'u', 's', 's'], ⟨[],
    [(['s', 't', 'a', 'n', 'd', 'a', 'r', 'd', '_', 'n', 'a', 'm', 'e'], .list [['n', 'o', 'r', 't', 'h', 'w', 'a', 'r', 'd', '_', 's', 'u', 'r', 'f', 'a', 'c', 'e', '_', 's', 't', 'o', 'k', 'e', 's', '_', 'd', 'r', 'i', 'f', 't']]), (['l', 'o', 'n', 'g', '_', 'n', 'a', 'm', 'e'], .list [['N', 'o', 'r', 't', 'h', 'w', 'a', 'r', 'd', ' ', 's', 'u', 'r', 'f', 'a', 'c', 'e', ' ', 's', 't', 'o', 'k', 'e', 's', ' ', 'd', 'r', 'i', 'f', 't']]), (['u', 'n', 'i', 't', 's'], .list [['m', ' ', 's', '-', '1']])],
    ['s', 'n']⟩),
  -- utus
  (['u', 't', 'u', 's'], ⟨[],
    [(['s', 't', 'a', 'n', 'd', 'a', 'r', 'd', '_', 'n', 'a', 'm', 'e'], .list [['e', 'a', 's', 't', 'w', 'a', 'r', 'd', '_', 's', 't', 'o', 'k', 'e', 's', '_', 't', 'r', 'a', 'n', 's', 'p', 'o', 'r', 't']]), (['l', 'o', 'n', 'g', '_', 'n', 'a', 'm', 'e'], .list [['E', 'a', 's', 't', 'w', 'a', 'r', 'd', ' ', 's', 't', 'o', 'k', 'e', 's', ' ', 't', 'r', 'a', 'n', 's', 'p', 'o', 'r', 't']]), (['u', 'n', 'i', 't', 's'], .list [['m', '2', ' ', 's', '-', '1']])],
    ['s', 'n']⟩),
  -- vtus
  (['v', 't', 'u', 's'], ⟨[],
    [(['s', 't', 'a', 'n', 'd', 'a', 'r', 'd', '_', 'n', 'a', 'm', 'e'], .list [['n', 'o', 'r', 't', 'h', 'w', 'a', 'r', 'd', '_', 's', 't', 'o', 'k', 'e', 's', '_', 't', 'r', 'a', 'n', 's', 'p', 'o', 'r', 't']]), (['l', 'o', 'n', 'g', '_', 'n', 'a', 'm', 'e'], .list [['N', 'o', 'r', 't', 'h', 'w', 'a', 'r', 'd', ' ', 's', 't', 'o', 'k', 'e', 's', ' ', 't', 'r', 'a', 'n', 's', 'p', 'o', 'r', 't']]), (['u', 'n', 'i', 't', 's'], .list [['m', '2', ' ', 's', '-', '1']])],
    ['s', 'n']⟩),
  -- mapsta
  (['m', 'a', 'p', 's', 't', 'a'], ⟨[],
    [(['s', 't', 'a', 'n', 'd', 'a', 'r', 'd', '_', 'n', 'a', 'm', 'e'], .list [['s', 't', 'a', 't', 'u', 's', '_', 'm', 'a', 'p']]), (['l', 'o', 'n', 'g', '_', 'n', 'a', 'm', 'e'], .list [['S', 't', 'a', 't', 'u', 's', ' ', 'm', 'a', 'p']]), (['u', 'n', 'i', 't', 's'], .list [['1']])],
    ['s', 'n']⟩),
  -- wlv
  (['w', 'l', 'v'], ⟨[],
    [(['u', 'n', 'i', 't', 's'], .list [['m']]), (['l', 'o', 'n', 'g', '_', 'n', 'a', 'm', 'e'], .list [['W', 'l', 'v']]), (['s', 't', 'a', 'n', 'd', 'a', 'r', 'd', '_', 'n', 'a', 'm', 'e'], .list [])],
    ['s', 'n']⟩),
  -- sig
  (['s', 'i', 'g'], ⟨[['s', '_', 'l', 'e', 'v', 'e', 'l'], ['s', 'i', 'g', 'm', 'a'], ['s'], ['s', 'i', 'g', 'm', 'a', '_', 'l', 'e', 'v', 'e', 'l']],
    [(['s', 't', 'a', 'n', 'd', 'a', 'r', 'd', '_', 'n', 'a', 'm', 'e'], .list [['o', 'c', 'e', 'a', 'n', '_', 's', 'i', 'g', 'm', 'a', '_', 'c', 'o', 'o', 'r', 'd', 'i', 'n', 'a', 't', 'e'], ['o', 'c', 'e', 'a', 'n', '_', 's', '_', 'c', 'o', 'o', 'r', 'd', 'i', 'n', 'a', 't', 'e'], ['a', 't', 'm', 'o', 's', 'p', 'h', 'e', 'r', 'e', '_', 's', 'i', 'g', 'm', 'a', '_', 'c', 'o', 'o', 'r', 'd', 'i', 'n', 'a', 't', 'e'], ['a', 't', 'm', 'o', 's', 'p', 'h', 'e', 'r', 'e', '_', 's', '_', 'c', 'o', 'o', 'r', 'd', 'i', 'n', 'a', 't', 'e'], ['o', 'c', 'e', 'a', 'n', '_', 's', '_', 'c', 'o', 'o', 'r', 'd', 'i', 'n', 'a', 't', 'e', '_', 'g', '1'], ['o', 'c', 'e', 'a', 'n', '_', 's', '_', 'c', 'o', 'o', 'r', 'd', 'i', 'n', 'a', 't', 'e', '_', 'g', '2']]), (['l', 'o', 'n', 'g', '_', 'n', 'a', 'm', 'e'], .list [['S', 'i', 'g', 'm', 'a', ' ', 'l', 'e', 'v', 'e', 'l']]), (['u', 'n', 'i', 't', 's'], .list [])],
    ['s', 'n']⟩),
  -- cs
  (['c', 's'], ⟨[],
    [(['s', 't', 'a', 'n', 'd', 'a', 'r', 'd', '_', 'n', 'a', 'm', 'e'], .list [['o', 'c', 'e', 'a', 'n', '_', 's', '_', 'c', 'o', 'o', 'r', 'd', 'i', 'n', 'a', 't', 'e', '_', 'f', 'u', 'n', 'c', 't', 'i', 'o', 'n']]), (['l', 'o', 'n', 'g', '_', 'n', 'a', 'm', 'e'], .list [['S', '-', 'c', 'o', 'o', 'r', 'd', 'i', 'n', 'a', 't', 'e', ' ', 's', 't', 'r', 'e', 't', 'c', 'h', 'i', 'n', 'g', ' ', 'c', 'u', 'r', 'v', 'e', 's']]), (['u', 'n', 'i', 't', 's'], .list [])],
    ['s', 'n']⟩),
  -- hc
  (['h', 'c'], ⟨[],
    [(['s', 't', 'a', 'n', 'd', 'a', 'r', 'd', '_', 'n', 'a', 'm', 'e'], .list [['o', 'c', 'e', 'a', 'n', '_', 's', '_', 'c', 'o', 'o', 'r', 'd', 'i', 'n', 'a', 't', 'e', '_', 't', 'h', 'i', 'c', 'k', '_', 'o', 'f', '_', 's', 'u', 'r', 'f', 'a', 'c', 'e', '_', 'r', 'e', 's', 'o', 'l', 'u', 't', 'i', 'o', 'n']]), (['l', 'o', 'n', 'g', '_', 'n', 'a', 'm', 'e'], .list [['S', 'i', 'g', 'm', 'a', '-', 'c', 'o', 'o', 'r', 'd', 'i', 'n', 'a', 't', 'e', ' ', 'c', 'r', 'i', 't', 'i', 'c', 'a', 'l', ' ', 'd', 'e', 'p', 't', 'h']]), (['u', 'n', 'i', 't', 's'], .list [])],
    ['s', 'n']⟩),
  -- thetas
  (['t', 'h', 'e', 't', 'a', 's'], ⟨[],
    [(['s', 't', 'a', 'n', 'd', 'a', 'r', 'd', '_', 'n', 'a', 'm', 'e'], .list [['o', 'c', 'e', 'a', 'n', '_', 's', '_', 'c', 'o', 'o', 'r', 'd', 'i', 'n', 'a', 't', 'e', '_', 's', 'u', 'r', 'f', 'a', 'c', 'e', '_', 'c', 'o', 'n', 't', 'r', 'o', 'l']]), (['l', 'o', 'n', 'g', '_', 'n', 'a', 'm', 'e'], .list [['O', 'c', 'e', 'a', 'n', ' ', 's', ' ', 'c', 'o', 'o', 'r', 'd', 'i', 'n', 'a', 't', 'e', ' ', 's', 'u', 'r', 'f', 'a', 'c', 'e', ' ', 'c', 'o', 'n', 't', 'r', 'o', 'l']]), (['u', 'n', 'i', 't', 's'], .list [])],
    ['s', 'n']⟩),
  -- thetab
  (['t', 'h', 'e', 't', 'a', 'b'], ⟨[],
    [(['s', 't', 'a', 'n', 'd', 'a', 'r', 'd', '_', 'n', 'a', 'm', 'e'], .list [['o', 'c', 'e', 'a', 'n', '_', 's', '_', 'c', 'o', 'o', 'r', 'd', 'i', 'n', 'a', 't', 'e', '_', 'b', 'o', 't', 't', 'o', 'm', '_', 'c', 'o', 'n', 't', 'r', 'o', 'l']]), (['l', 'o', 'n', 'g', '_', 'n', 'a', 'm', 'e'], .list [['O', 'c', 'e', 'a', 'n', ' ', 's', ' ', 'c', 'o', 'o', 'r', 'd', 'i', 'n', 'a', 't', 'e', ' ', 'b', 'o', 't', 't', 'o', 'm', ' ', 'c', 'o', 'n', 't', 'r', 'o', 'l']]), (['u', 'n', 'i', 't', 's'], .list [])],
    ['s', 'n']⟩)]

/-- the built-in coordinates (xoa/cf.cfg:995-1061 after loading, xoa/cf.py:761-786) -/
def builtinCoords : CfCat := [
  -- time
  (['t', 'i', 'm', 'e'], ⟨[],
    [(['s', 't', 'a', 'n', 'd', 'a', 'r', 'd', '_', 'n', 'a', 'm', 'e'], .list [['t', 'i', 'm', 'e']]), (['l', 'o', 'n', 'g', '_', 'n', 'a', 'm', 'e'], .list [['T', 'i', 'm', 'e']]), (['a', 'x', 'i', 's'], .text ['T']), (['u', 'n', 'i', 't', 's'], .list [])],
    ['n', 's', 'a']⟩),
  -- lon
  (['l', 'o', 'n'], ⟨[['l', 'o', 'n', 'g', 'i', 't', 'u', 'd', 'e'], ['n', 'a', 'v', '_', 'l', 'o', 'n']],
    [(['s', 't', 'a', 'n', 'd', 'a', 'r', 'd', '_', 'n', 'a', 'm', 'e'], .list [['l', 'o', 'n', 'g', 'i', 't', 'u', 'd', 'e'], ['l', 'o', 'n', 'g', 'i', 't', 'u', 'd', 'e', 's']]), (['l', 'o', 'n', 'g', '_', 'n', 'a', 'm', 'e'], .list [['L', 'o', 'n', 'g', 'i', 't', 'u', 'd', 'e']]), (['u', 'n', 'i', 't', 's'], .list [['d', 'e', 'g', 'r', 'e', 'e', 's', '_', 'e', 'a', 's', 't'], ['d', 'e', 'g', 'r', 'e', 'e', '_', 'e', 'a', 's', 't'], ['d', 'e', 'g', 'r', 'e', 'e', '_', 'e'], ['d', 'e', 'g', 'r', 'e', 'e', 's', '_', 'e'], ['d', 'e', 'g', 'r', 'e', 'e', 'e'], ['d', 'e', 'g', 'r', 'e', 'e', 's', 'e']]), (['a', 'x', 'i', 's'], .text ['X'])],
    ['s', 'n', 'u']⟩),
  -- lat
  (['l', 'a', 't'], ⟨[['l', 'a', 't', 'i', 't', 'u', 'd', 'e'], ['n', 'a', 'v', '_', 'l', 'a', 't'], ['l', 'a', 't', 'i', 't', 'u', 'd', 'e', 's']],
    [(['s', 't', 'a', 'n', 'd', 'a', 'r', 'd', '_', 'n', 'a', 'm', 'e'], .list [['l', 'a', 't', 'i', 't', 'u', 'd', 'e']]), (['l', 'o', 'n', 'g', '_', 'n', 'a', 'm', 'e'], .list [['L', 'a', 't', 'i', 't', 'u', 'd', 'e']]), (['u', 'n', 'i', 't', 's'], .list [['d', 'e', 'g', 'r', 'e', 'e', 's', '_', 'n', 'o', 'r', 't', 'h'], ['d', 'e', 'g', 'r', 'e', 'e', '_', 'n', 'o', 'r', 't', 'h'], ['d', 'e', 'g', 'r', 'e', 'e', '_', 'n'], ['d', 'e', 'g', 'r', 'e', 'e', 's', '_', 'n'], ['d', 'e', 'g', 'r', 'e', 'e', 'n'], ['d', 'e', 'g', 'r', 'e', 'e', 's', 'n']]), (['a', 'x', 'i', 's'], .text ['Y'])],
    ['s', 'n', 'u']⟩),
  -- x
  (['x'], ⟨[['x', 'i']],
    [(['s', 't', 'a', 'n', 'd', 'a', 'r', 'd', '_', 'n', 'a', 'm', 'e'], .list [['x', '_', 'g', 'r', 'i', 'd', '_', 'i', 'n', 'd', 'e', 'x']]), (['l', 'o', 'n', 'g', '_', 'n', 'a', 'm', 'e'], .list [['X', '-', 'd', 'i', 'm', 'e', 'n', 's', 'i', 'o', 'n', ' ', 'o', 'f', ' ', 't', 'h', 'e', ' ', 'g', 'r', 'i', 'd']]), (['u', 'n', 'i', 't', 's'], .list []), (['a', 'x', 'i', 's'], .none_)],
    ['n', 's', 'a']⟩),
  -- y
  (['y'], ⟨[['y', 'i']],
    [(['s', 't', 'a', 'n', 'd', 'a', 'r', 'd', '_', 'n', 'a', 'm', 'e'], .list [['y', '_', 'g', 'r', 'i', 'd', '_', 'i', 'n', 'd', 'e', 'x']]), (['l', 'o', 'n', 'g', '_', 'n', 'a', 'm', 'e'], .list [['Y', '-', 'd', 'i', 'm', 'e', 'n', 's', 'i', 'o', 'n', ' ', 'o', 'f', ' ', 't', 'h', 'e', ' ', 'g', 'r', 'i', 'd']]), (['u', 'n', 'i', 't', 's'], .list []), (['a', 'x', 'i', 's'], .none_)],
    ['n', 's', 'a']⟩),
  -- depth
  (['d', 'e', 'p', 't', 'h'], ⟨[['d', 'e', 'p']],
    [(['a', 'x', 'i', 's'], .text ['Z']), (['l', 'o', 'n', 'g', '_', 'n', 'a', 'm', 'e'], .list [['D', 'e', 'p', 't', 'h'], ['D', 'e', 'p', 't', 'h']]), (['s', 't', 'a', 'n', 'd', 'a', 'r', 'd', '_', 'n', 'a', 'm', 'e'], .list [['o', 'c', 'e', 'a', 'n', '_', 'l', 'a', 'y', 'e', 'r', '_', 'd', 'e', 'p', 't', 'h']]), (['u', 'n', 'i', 't', 's'], .list [['m']])],
    ['n', 's', 'a']⟩),
  -- altitude
  (['a', 'l', 't', 'i', 't', 'u', 'd', 'e'], ⟨[['a', 'l', 't', 'i', 't', 'u', 'd', 'e', 't'], ['a', 'l', 't', 'i', 't', 'u', 'd', 'e', 'u'], ['a', 'l', 't', 'i', 't', 'u', 'd', 'e', 'v']],
    [(['a', 'x', 'i', 's'], .text ['Z']), (['l', 'o', 'n', 'g', '_', 'n', 'a', 'm', 'e'], .list [['A', 'l', 't', 'i', 't', 'u', 'd', 'e'], ['A', 'l', 't', 'i', 't', 'u', 'd', 'e']]), (['s', 't', 'a', 'n', 'd', 'a', 'r', 'd', '_', 'n', 'a', 'm', 'e'], .list [['a', 't', 'm', 'o', 's', 'p', 'h', 'e', 'r', 'e', '_', 'l', 'a', 'y', 'e', 'r', '_', 'a', 'l', 't', 'i', 't', 'u', 'd', 'e']]), (['u', 'n', 'i', 't', 's'], .list [['m']])],
    ['n', 's', 'a']⟩),
  -- sig
  (['s', 'i', 'g'], ⟨[['s', '_', 'l', 'e', 'v', 'e', 'l'], ['s', 'i', 'g', 'm', 'a'], ['s'], ['s', 'i', 'g', 'm', 'a', '_', 'l', 'e', 'v', 'e', 'l']],
    [(['a', 'x', 'i', 's'], .text ['Z']), (['l', 'o', 'n', 'g', '_', 'n', 'a', 'm', 'e'], .list [['S', 'i', 'g'], ['S', 'i', 'g', 'm', 'a', ' ', 'l', 'e', 'v', 'e', 'l']]), (['s', 't', 'a', 'n', 'd', 'a', 'r', 'd', '_', 'n', 'a', 'm', 'e'], .list [['o', 'c', 'e', 'a', 'n', '_', 's', 'i', 'g', 'm', 'a', '_', 'c', 'o', 'o', 'r', 'd', 'i', 'n', 'a', 't', 'e'], ['o', 'c', 'e', 'a', 'n', '_', 's', '_', 'c', 'o', 'o', 'r', 'd', 'i', 'n', 'a', 't', 'e'], ['a', 't', 'm', 'o', 's', 'p', 'h', 'e', 'r', 'e', '_', 's', 'i', 'g', 'm', 'a', '_', 'c', 'o', 'o', 'r', 'd', 'i', 'n', 'a', 't', 'e'], ['a', 't', 'm', 'o', 's', 'p', 'h', 'e', 'r', 'e', '_', 's', '_', 'c', 'o', 'o', 'r', 'd', 'i', 'n', 'a', 't', 'e'], ['o', 'c', 'e', 'a', 'n', '_', 's', '_', 'c', 'o', 'o', 'r', 'd', 'i', 'n', 'a', 't', 'e', '_', 'g', '1'], ['o', 'c', 'e', 'a', 'n', '_', 's', '_', 'c', 'o', 'o', 'r', 'd', 'i', 'n', 'a', 't', 'e', '_', 'g', '2']]), (['u', 'n', 'i', 't', 's'], .list [])],
    ['n', 's', 'a']⟩),
  -- level
  (['l', 'e', 'v', 'e', 'l'], ⟨[['m', 'o', 'd', 'e', 'l', '_', 'l', 'e', 'v', 'e', 'l'], ['s', '_', 'l', 'e', 'v', 'e', 'l'], ['s', 'i', 'g', 'm', 'a'], ['s'], ['s', 'i', 'g', 'm', 'a', '_', 'l', 'e', 'v', 'e', 'l']],
    [(['s', 't', 'a', 'n', 'd', 'a', 'r', 'd', '_', 'n', 'a', 'm', 'e'], .list [['m', 'o', 'd', 'e', 'l', '_', 'l', 'e', 'v', 'e', 'l', '_', 'n', 'u', 'm', 'b', 'e', 'r'], ['o', 'c', 'e', 'a', 'n', '_', 's', 'i', 'g', 'm', 'a', '_', 'c', 'o', 'o', 'r', 'd', 'i', 'n', 'a', 't', 'e'], ['o', 'c', 'e', 'a', 'n', '_', 's', '_', 'c', 'o', 'o', 'r', 'd', 'i', 'n', 'a', 't', 'e'], ['a', 't', 'm', 'o', 's', 'p', 'h', 'e', 'r', 'e', '_', 's', 'i', 'g', 'm', 'a', '_', 'c', 'o', 'o', 'r', 'd', 'i', 'n', 'a', 't', 'e'], ['a', 't', 'm', 'o', 's', 'p', 'h', 'e', 'r', 'e', '_', 's', '_', 'c', 'o', 'o', 'r', 'd', 'i', 'n', 'a', 't', 'e'], ['o', 'c', 'e', 'a', 'n', '_', 's', '_', 'c', 'o', 'o', 'r', 'd', 'i', 'n', 'a', 't', 'e', '_', 'g', '1'], ['o', 'c', 'e', 'a', 'n', '_', 's', '_', 'c', 'o', 'o', 'r', 'd', 'i', 'n', 'a', 't', 'e', '_', 'g', '2']]), (['l', 'o', 'n', 'g', '_', 'n', 'a', 'm', 'e'], .list [['M', 'o', 'd', 'e', 'l', ' ', 'l', 'e', 'v', 'e', 'l', ' ', 'n', 'u', 'm', 'b', 'e', 'r'], ['S', 'i', 'g'], ['S', 'i', 'g', 'm', 'a', ' ', 'l', 'e', 'v', 'e', 'l']]), (['a', 'x', 'i', 's'], .text ['Z']), (['u', 'n', 'i', 't', 's'], .list [])],
    ['n', 's', 'a']⟩),
  -- forecast
  (['f', 'o', 'r', 'e', 'c', 'a', 's', 't'], ⟨[],
    [(['s', 't', 'a', 'n', 'd', 'a', 'r', 'd', '_', 'n', 'a', 'm', 'e'], .list [['f', 'c', 't'], ['f', 'o', 'r', 'e', 'c', 'a', 's', 't', '_', 't', 'i', 'm', 'e']]), (['l', 'o', 'n', 'g', '_', 'n', 'a', 'm', 'e'], .list [['F', 'o', 'r', 'e', 'c', 'a', 's', 't']]), (['a', 'x', 'i', 's'], .text ['F']), (['u', 'n', 'i', 't', 's'], .list [])],
    ['n', 's', 'a']⟩)]

/-- the built-in dimensions (xoa/cf.cfg:1062-1067 after loading, xoa/cf.py:782-786) -/
def builtinDims : CfDims := [
  (['x'], [['n', 'x'], ['n', 'i'], ['x'], ['i', 'm', 't'], ['i', 'p', 'i'], ['x', 'i'], ['l', 'o', 'n'], ['l', 'o', 'n', 'g', 'i', 't', 'u', 'd', 'e'], ['n', 'a', 'v', '_', 'l', 'o', 'n']]),
  (['y'], [['n', 'y'], ['n', 'j'], ['y'], ['j', 'm', 't'], ['j', 'p', 'j'], ['y', 'i'], ['l', 'a', 't'], ['l', 'a', 't', 'i', 't', 'u', 'd', 'e'], ['n', 'a', 'v', '_', 'l', 'a', 't'], ['l', 'a', 't', 'i', 't', 'u', 'd', 'e', 's']]),
  (['z'], [['n', 'z'], ['n', 'k'], ['z'], ['k', 'm', 't'], ['l', 'e', 'v', 'e', 'l'], ['z', 'i'], ['d', 'e', 'p', 't', 'h'], ['d', 'e', 'p'], ['a', 'l', 't', 'i', 't', 'u', 'd', 'e'], ['a', 'l', 't', 'i', 't', 'u', 'd', 'e', 't'], ['a', 'l', 't', 'i', 't', 'u', 'd', 'e', 'u'], ['a', 'l', 't', 'i', 't', 'u', 'd', 'e', 'v'], ['s', 'i', 'g'], ['s', '_', 'l', 'e', 'v', 'e', 'l'], ['s', 'i', 'g', 'm', 'a'], ['s'], ['s', 'i', 'g', 'm', 'a', '_', 'l', 'e', 'v', 'e', 'l'], ['l', 'e', 'v', 'e', 'l'], ['m', 'o', 'd', 'e', 'l', '_', 'l', 'e', 'v', 'e', 'l'], ['s', '_', 'l', 'e', 'v', 'e', 'l'], ['s', 'i', 'g', 'm', 'a'], ['s'], ['s', 'i', 'g', 'm', 'a', '_', 'l', 'e', 'v', 'e', 'l']]),
  (['t'], [['n', 't'], ['t'], ['t', 'i', 'm', 'e']]),
  (['f'], [['n', 'f'], ['f', 'o', 'r', 'e', 'c', 'a', 's', 't']])]

deriving instance DecidableEq for CfSpec

/-- loading the built-in file succeeds, and gives these data variables, coordinates and dimensions -/
theorem builtin_loaded : builtinLoaded.toOption.isSome = true ∧ catLoaded cVars builtinLoaded = builtinVars ∧
    catLoaded cCoords builtinLoaded = builtinCoords ∧ dimsLoaded builtinLoaded = builtinDims := by decide +kernel

end Xoa
