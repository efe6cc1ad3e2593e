# Formal model of VACUMM/xoa in Lean 4

## Approach

The model is a set of small, total, computable Lean functions that mirror the
Python functions of `/repo/xoa` branch by branch; every definition cites the
file and the lines it models.  Exceptions are values (`Except`/explicit error
constructors); loops are structural recursions over the loop range with the
loop-carried variables as arguments, `break`/`continue` being explicit
branches; functions that mutate an argument return the new value.

For each area there is
* `Verif/<Area>.lean` – the model (definitions only, with citations);
* `Verif/<Area>Spec.lean` – where needed, a small independent specification;
* `Verif/<Area>Lemmas.lean` – helper lemmas;
* `Verif/<Area>Props.lean` – the property theorems and, beside each of them, an
  `example` showing that a concrete non-trivial case meets its hypotheses.

Where the code violates the property, the theorem proves the strongest part
that holds (suffix `_partial`), and a separate theorem proves the violation
with a concrete witness (`..._violated`, `..._counterexample`).

## Trusted base

* Lean 4.33.0 kernel.
* Axioms: only `propext`, `Classical.choice`, `Quot.sound`; `AXIOMS.md` lists them
  for each property theorem.  No axiom is added, no compiled evaluation is used.
* The reading of the Python source (the code is not executed).
* Numbers: float64 values are modelled by `Option ℚ` (`none` = NaN) or by `ℝ`
  for the transcendental parts.  Rounding is modelled by `Verif/Rounding.lean`
  and its users for the 1-D interpolations and cell averages, the cell edges, the
  sigma coordinates, `regrid1d`, `haversine`, `closest2d` and `cell2relloc` (C204, C205,
  C208-C210, C212, C219, C226, C227: how far the results in floating-point arithmetic
  are from those of the exact models); elsewhere
  rounding, and everywhere overflow, underflow and ±inf, are not modelled
  (division by zero gives NaN in the model, where floats would give ±inf for a
  nonzero numerator; this is said at each definition where it can happen).
* Libraries: numpy / xarray / scipy / configobj / re primitives are modelled by
  their documented behaviour (each use is cited): row-major reshape, named
  transpose, `scipy.signal.convolve(mode="same")`, Python `re` matching of the
  few patterns used (greedy/backtracking semantics made explicit), dict with
  insertion order.

## Plan per property

| id | model | proof |
|---|---|---|
| C01 | `get_iminmax` loop | loop invariant by induction on the range |
| C02 | `linear1d` row scan with `continue`/`break`/start index | refinement of the scan to "last interval containing the point" then algebra |
| C03 | `nearest1d` row scan | same refinement, minimality by ordering |
| C04 | all four scans with NaN coordinates | invariant "only written if guarded"; negation for `nearest1d` |
| C05 | `cubic1d`, `hermit1d` | refinement + polynomial identities (`ring`/`field_simp`) |
| C06 | outer row loops with index arithmetic, out-of-bound reads as errors | arithmetic of mod; negation for cubic/hermit/cellave |
| C07 | outer loop as a fold over an arbitrary permutation of rows | disjoint writes commute, induction on permutations |
| C08 | `extrap1d` | from C01 |
| C09, C10 | `cellave1d` | refinement of the double loop to sum of overlaps, telescoping |
| C11 | `haversine` over ℝ | trigonometric identities, `Real.arcsin` bounds |
| C12 | `closest2d` double loop | running minimum invariant |
| C13, C14 | `cell2relloc`, `grid2relloc` over ℝ | algebra, quadratic formula; completeness is false of the code (negation) |
| C15, C16 | `get_edges_1d/2d` | induction / index cases |
| C17-C20, C63 | named arrays (dims + function of named index), `transpose`, `DimFlusher1D` | permutation lemmas, row-major index arithmetic |
| C21 | `regrid1d` dispatch | case analysis over the option space |
| C22-C27 | `_convolve_`, `erode_mask`, kernels | weighted-mean inequality over finite sums; induction on iterations |
| C28-C33 | sigma formulas, caches, formula-term parser, tables | real algebra, `Real.sinh/tanh` monotonicity, string induction, finite tables |
| C34-C37 | option store as a state machine | induction over programs with nested contexts and exceptions |
| C38-C42 | `SGLocator` with explicit regex matching | string induction |
| C43-C48 | `CFSpecs` search/match/inherit/load/cache | list induction, heap model for aliasing, state machine for the disk cache |
| C49-C55, C62 | `misc` helpers | structural induction |
| C56-C59 | `cfgm` validators, patch, names, filter | structural induction |
| C60-C61 | accessors/coords getters as state machines | case analysis |
| C64-C66 | dimensions of coordinates, `CFSpecs.search/match`, accessor state machine | list search lemmas, histories of accesses |
| C67-C72 | row kernels, `closest2d`, `cell2relloc`, `grid2relloc` | refinement of loops; negations with families of witnesses |
| C73-C78 | edges of integers and 2-D borders, `regrid1d` options, convolution | index cases, finite sums, negations |
| C79-C83 | sigma shapes, crossing levels, stretching types, caches, term parser | real algebra, cache as a state machine, string induction |
| C84-C86 | options: failed first load, setting, unknown names | state machine with exceptions |
| C87-C93 | `SGLocator`, search labels, inheritance, reload, dims, disk cache | string induction, fixpoints, state machine |
| C94-C99 | `dict_merge`, `dict_filter`, enumerations, validators, patch | heap model for aliasing, structural induction |
| C100-C111 | `format_*`, `fill_attrs`, `get_attrs` | induction on attribute lists, renaming as finite maps |
| C112 | the five sigma functions against the formulas of the CF conventions | real algebra |
| C113-C115 | `register_accessors`, `are_similar`, `search_similar` | registry as a finite map |
| C116-C119 | `ConfigManager.arg_parse` (declaration, parsing, patching) | structural induction on the specification tree, argparse as a fold over tokens |
| C120-C121 | `CmapAdapter` | induction on histories of `set_vlim` |
| C125-C127 | window values, isotropic kernels, kernels isotropic along some dimensions | induction on the sorted points of the interpolation, real algebra |
| C122-C124 | `is_bbox`, `is_interval`, `_check256_` | string induction, rational arithmetic |
| C128-C133 | histories of `load_cfg`, `set_specs`, `copy`, lookups by name, searches of several items and in categories | state of the specifications as a value, induction on histories and lists |
| C134-C138 | `ConfigManager.reset`, registration of validators, removal of defaults, paths of sections, extra arguments | file system as a finite map, structural induction on section trees |
| C139-C142 | attribute access of accessors, specifications they use, formatting of arrays | state machine of an accessor, case analysis on names |
| C143, C144 | `regrid1d` from its arguments to the result; `linear4dto1dxx` | composition of the dispatch, broadcasting and row theorems |
| C145 | modes of the cache file | state machine over the disk, mode by mode |
| C146, C147 | validators of dates, durations, ranges, dictionaries, expressions, paths | string induction |
| C148-C151 | help of options, `opt2rst`, declaration of options, `cfg2rst` | lists of lines, structural induction on sections |
| C152-C155 | data samples, `xoa` command, versions, `show_options` | finite maps, text lemmas |
| C156, C157 | `Choices` messages, text of enumerations | list induction |
| C158-C160 | units and linearity of the interpolations and of the filters | affine change of coordinates through the row scans, linearity of finite sums |
| C161-C165, C168 | `ConfigManager.load`, `patch`, `arg_patch`, `__init__`, `__many__` specifications | structural induction on specification trees, heap model for aliasing |
| C166, C167 | horizontal dimensions of `erode_mask`, property `dim` of accessors | case analysis over the searches |
| C169-C171 | `grid2loc`, `is_cmap`, `auto_format` | composition of the modelled parts |
| C172-C176 | the specifications of `cf.cfg` as data, loaded by the modelled loader | evaluation of the loaded tables *by the kernel* (the domain is the finite file itself), combined with general lemmas that hold for every array, location, attribute value and dimension |
| C177 | names, dimensions and axes of `get_edges_1d`/`get_edges_2d` on labelled arrays | composition with the model of the values |
| C178 | coordinate getters run with the loaded tables of `cf.cfg` | general lemmas on told/untold coordinates through the search, tables evaluated by the kernel |
| C179 | choice of the dimensions and of the coordinate by `DimFlusher1D`, with the modelled searches | inversion of the choice, induction on the coordinates |
| C180 | default options and `reset_options` | the model of C34-C36, for every state |
| C181 | whole `regrid1d`: C179, then C19, then C02/C143 | composition of the theorems on the names, the flattening and the routine |
| C182 | search of the built-in data variables in a dataset | the table of cf.cfg (C128, C172), induction on the visits of the search |
| C183 | the 1-D routines with an integer output array | simulation of the float run, value by value; the conversion of a float (toward zero) and of NaN (an unspecified integer) on writes is an assumption about numba |
| C184 | the scans of the 1-D routines on decreasing coordinates | no cell of a decreasing row brackets a value, so soundness of the scans leaves every output missing; the outer loop is idle when each cell is below the first output or above the last one; direct computation of the scan when all outputs are in one cell |
| C185 | closest point, cell containment and relative location when the longitudes of a grid are counted from another origin | the haversine argument only sees longitudes modulo one turn (`closest`), the quadrangle test and the solved relative location only see differences (shift of grid *and* target); a target shifted alone by a whole turn is reported outside: counter-examples |
| C186 | order of two arrays through the 1-D routines, `regrid1d`, cell averages, extrapolation, filters and erosion | the scans of two data arrays take the same branches, so the two outputs stay related (relation carried through the loops and through the flushing plan); sums with nonnegative weights; induction on the turns; the cubic and Hermite methods overshoot and are left out |
| C187 | the scans of the 1-D routines, which keep a running index from one output to the next | exact value of each output: the last cell around its coordinate wins (invariant of the running index, strict version for the cubic and Hermite scan), and this cell is a function of the coordinate alone; lifted to `regrid1d` by the pairing of rows |
| C188 | convolution, completion of the kernel and erosion loop, with positions by name | bijection between the positions of the two arrays; the weights are the same for odd sizes; induction on the turns; exact end of the loop (C26) | 
| C189 | `regrid1d` on arrays whose other dimensions are picked by index maps | row pairing by name (C19) for both layouts; row-wise routines only see the rows at the same place; sizes and ranges of the picked positions |
| C190 | get_edges_1d, get_edges_2d as for C15, C16, with the content of the allocated memory as a parameter | closed form of the edges, then algebra |
| C191 | the sigma functions with real numbers as for C28, C29 | algebra; bounds of the fraction from those of the stretching (C29) |
| C192 | cellave1d, regrid1d as for C09, C10, C19 | overlaps of nested cells add up (telescoping sums) |
| C193 | closest point, location in a cell and in a grid when the grid is transposed, reversed, permuted or thinned | a strict minimum of the distance is found in every visiting order; the corners exchanged turn the bilinear map into itself with p and q exchanged or reversed, and convex cells have one location (C13); the only cell examined corresponds under transposition; a reversed grid around the equator as violation |
| C194 | choice of the arguments, of the class and of the comments around the merge of items | empty dictionaries do not change the concatenation of the items; the first class that counts by induction on the arguments; keys of the merge (C49) for the TypeError |
| C195 | name formats with the fields in any order and unquoted fixed parts, the checks of the format | reduction to the root-first parser of C38, backtracking lemmas for the location-first one; counterexamples for every name |
| C196 | match and search with a dictionary in place of a name | equivalence with the satisfaction of one criterion (C43); the failures hold for every dictionary |
| C197 | get_sigma_terms on a list of sigma variables | induction on the loop with its dictionary of locations |
| C198 | decode_cf_sigma on a whole dataset, the values being named positions | induction on the locations; labels by computation with the built-in tables (C148) |
| C199 | get_axis on any array with any specifications | cases; the built-in table by computation, names by C174 |
| C200 | items of CFSpecs, selection of get_cf_specs | cases on the two lookups |
| C201 | convolution and erosion of integer arrays: truncation of the weights, integer sums, refusal of the division in place | sums of casts; induction-free algebra on positions, case analysis of the failures |
| C202 | the scalar branch of generate_orthogonal_kernel (C27 model) | floor arithmetic; lengths |
| C203 | linear1d, nearest1d, cubic1d, hermit1d (C02, C03, C05 models) composed with themselves | discrete intermediate value (induction on the distance of two nodes), then composition of straight lines |
| C204 | the four 1-D routines with the result of each operation rounded (`Rounding`, `Interp1dF`) | the rounded differences have the same signs, so that the loops take the same branches: simulation of the two runs, then bounds of the errors of each formula by a calculus of relative errors |
| C205 | as C204; round to nearest even with 53 bits | corollaries of C204 with C02; negation with a float64 example |
| C206 | `_convolve_`, `convolve`, `erode_mask` with any function close to the sums of products in place of `scipy.signal.convolve` (`FilterApprox`) | error of a quotient, threshold with a margin, induction on the turns; negation with a convolver that leaks a datum |
| C207 | `load` with `cfgfilter` (C161 model) | composition of C59 (filter) and C161 (patches, validation) at a path; kinds of the filtered tree by induction on the path |
| C208 | `get_edges_1d` with a rounded operation at each step, rounding to nearest with `p` bits | order, fixed points and halving of the rounding, then the closed form of the edges |
| C209 | `cellave1d` with a rounded operation at each step | the rounded loops take the same branches as the exact ones; the error of the weight and of the sum grows by one rounding for each input cell (induction on the loop), then a quotient bound |
| C210 | the five sigma formulas with a rounded operation at each step, at one point of the grid | monotonicity of each rounded operation; symmetry of the rounding at the ends; a calculus of accumulated errors (`UpTo`) |
| C211 | `print_short_help` and the help options of `arg_parse`: the pieces of the help as a list | membership in the filtered groups and actions |
| C212 | `regrid1d` with every operation of the interpolation rounded; the layout functions copy values | both programs on the same flattened rows (any accepted layout), bounds of C204 and C209 row by row, edges sorted by C208; refusals depend on shapes only |
| C213 | xarray arithmetic on named dimensions (broadcasting, refusal of conflicting sizes, in-place operations, truth value of an array in `None in (...)`) and the six functions of sigma.py on arrays | induction-free composition of one lemma per operation: result on the grid, union of the dimensions, pointwise value; then algebra against the CF formulas of C112 |
| C214 | decode_cf_sigma with the arrays of the dataset: search of the terms (C33, C197), call of the formula on the arrays (C213), labels and insertion of the coordinate (C198) | composition: the decoding with values equals the decoding with a given result of the formula, then C198, C33 and C213 |
| C215 | get_cf_specs and reset_cache as sequences of system calls (exists, stat, open, partial reads and writes, remove) of any number of processes on one file with an inode; schedules with kills and clock ticks | invariants preserved by every event (content of the file is a prefix of the pickle, memory holds the specifications), a decreasing measure for termination; schedules for the violations |
| C216 | get_option, load_options, set_options contexts and reset_options as sequences of accesses to _CACHE, any number of threads | invariants on the object in force and on the point of each thread, three phases for a load; schedules for the violations |
| C217 | histories of runs of reset, each one stopped in any of the states of C134 | induction on the history; two runs for the violation |
| C218 | get_cf_specs, set_cf_specs contexts and reset of the memory as sequences of accesses to _CACHE, any number of threads | invariant: the current specifications are those of the innermost context, each context has saved those around it; schedules for the violations |
| C219 | get_edges_2d with every operation rounded (edges2dF) | the sum of four equal numbers is exact for rounding to nearest (analysis of the bits that are lost), monotonicity, error analysis; borders case by case |
| C220 | the six 1-D routines written again with a bound check at each read and write | the checked programs equal the unchecked ones by induction on the loops; the invariant is that the first output index stays between the first and last valid ones |
| C221 | the location routines of Interp2d.lean, whose arrays have arbitrary values outside of their bounds | congruence of the loops for grids that agree inside of the bounds; bounds of the window of cells |
| C222 | `convolve` of C22 with the kernels of C27 | product kernels, exchange of the sums along each dimension by induction on the shape; means by the equality of the sums of weights; missing values by the exact condition of availability |
| C223 | the routines of C02, C03, C05, C10, C19, C22 and C25 | simulation between two runs on the two arrays, that write at the same places; sums of weights that grow |
| C224 | a part of an array (slices along each dimension), the points further from the cuts than half of the kernel | the sums over the whole are sums over the part because the kernel is null elsewhere; counterexample where the kernel reaches nothing |
| C225 | the points reached by n turns of the default kernel, as a set of positions | induction on the turns with the exact effect of one turn (C25_default_turn), a step towards the datum for the converse; C26_result and C26_returns_iff for the target mask |
| C226 | `haversine` and `closest2d` over an abstract machine arithmetic (rounding, library functions) | propagation of error bounds through the formula, Hölder bound of the arc cosine, invariant of the running minimum |
| C227 | `cell2relloc` with each operation rounded and an IEEE 754 square root | products of relative errors for rectangles; evaluation in float64, with the rounded square root from its specification, for the violations |
| C228 | two calls of `transpose` | C17 on the result of the first call; equality of the permuted arrays |
| C229 | two calls of `extrap1d` | C08 on the result of the first call, with its first and last known data |
| C230 | the same routines as C158, C159, C160 and C186 | order (C186) and change of origin (C159, C160) for the factor 1; the four weights and the linearly extended neighbours for cubic and Hermite, reached by a closed computation |
| C231 | the matching and searching of C43 | the loops of search are a stable selection by the rank of the first criterion satisfied, then facts on lists; the attributes by the names of the criteria |
| C232 | sequences of load_options calls, failing ones included, on the store of options | induction on the sequence of calls: value of the last call that gives the option, with idempotence of the validation |
| C233 | convolve with shapiro_kernel of one or two dimensions, any other dimensions | explicit five point stencil from the sum over all positions; impulse for one dimension |
| C234 | convolve with any symmetric kernel on a linear field, as in C22 | the differences with the central value cancel in pairs by reflection of the positions |
| C235 | `convolve` with the weights given to every datum (`kIdx`), normalised or not, and the total of the result | the sum over the results exchanged with the sum over the data; the positions that receive a datum are in bijection with the kernel where the kernel stays inside the array; the normalisation is the constant kernel sum wherever something is received |
| C236 | nothing new: `erodeMaskN` and `erodeMaskUntil`, with any kernel | turns add up (`iter_add`); the number of turns of a target mask is the smallest one that reaches it (C26_result), hence the comparison of the numbers of turns |
| C237 | nothing new: `closest2d` on two grids whose points, and targets, are at a bounded angle, and on a part of a grid | triangle inequality of the angle (C11); minimality, first place and existence of the returned point (C12, C70) |
| C238 | nothing new: `patchCfg` repeated over a list of patches | the effect of one patch on each option (C57), the kinds of what is at each path after a patch, induction on the list; conversions are idempotent |
| C239 | nothing new: `dictFilter` with lists of prefixes, in one call or several | the output of each prefix does not depend on what is already in the output dictionary, by induction on the items and on the prefixes; nothing that a prefix selects remains (C51) |
| C240 | nothing new: the sigma functions on one point | the formulas of the CF conventions (C112), the range of the stretching function (C30), products of nonnegative factors |
| C241 | `SGLocator.format_attr` called on its own result with a list of locations | induction on the history: the root read back is the root written (C38), so only the last location is left |
| C242 | `SGLocator.merge_attr` called on its own result with a list of texts | induction on the list: one call gives the root of the second text at its location or else that of the first (C38, C40); the rest is the last element of a list |

## Properties, status and modules

Generated by `tools/design_tables.py`; the exact theorem names are in `MANIFEST.json`.

<!-- table:begin -->
| id | property | status | modules |
|---|---|---|---|
| C01 | First/last valid index | proved | Interp1dProps |
| C02 | Linear interpolation is the piecewise-linear interpolant | proved | Interp1dProps |
| C03 | Nearest interpolation returns a nearest input value | proved | Interp1dProps |
| C04 | Missing output coordinate gives a missing output | proved | Interp1dProps |
| C05 | Cubic and Hermite interpolation pass through the nodes | proved | Interp1dFormulaProps, Interp1dProps |
| C06 | Row pairing of the 1-D routines | proved | Interp1dProps |
| C07 | Schedule independence of the parallel loops | proved | Interp1dSchedProps |
| C08 | Extrapolation only fills the requested ends | proved | Interp1dProps |
| C09 | Conservative cell averaging conserves the integral | proved | CellaveProps |
| C10 | Cell averaging is an average | proved | CellaveProps |
| C11 | Great circle distance | proved | HaversineProps |
| C12 | Closest grid point | proved | ClosestProps |
| C13 | Relative location in a cell inverts the bilinear map | proved | CellLocProps |
| C14 | Relative location in a grid | proved | GridLocProps |
| C15 | Cell edges enclose the centers | proved | GridProps |
| C16 | 2-D cell edges | proved | GridProps |
| C17 | Named transposition keeps data and never duplicates dimensions | proved | CoordsProps |
| C18 | Regridding goes back to the original layout | proved | FlushProps |
| C19 | Regridding pairs each data row with its own coordinate row | partial | FlushProps, RegridProps |
| C20 | Incompatible coordinates are refused | proved | FlushProps, RegridAcceptProps |
| C21 | Regridding method dispatch | proved | RegridProps |
| C22 | Normalised convolution is a weighted mean | proved | FilterProps, FilterWindowProps |
| C23 | Plain convolution is linear and identity-preserving | proved | FilterProps, FilterWindowProps |
| C24 | Missing values do not leak | proved | FilterProps |
| C25 | Mask erosion keeps valid data and only shrinks the mask | proved | ErodeProps, ErodeTurnProps, StepsProps |
| C26 | Mask erosion down to a mask terminates | partial | ErodeDefaultProps, ErodeUntilProps |
| C27 | Kernel generation | partial | FilterKernelProps |
| C28 | Sigma coordinates reach bottom and surface | proved | SigmaProps |
| C29 | Sigma levels are ordered | proved | SigmaProps |
| C30 | Stretching function | proved | SigmaProps |
| C31 | Cached sigma constants give the same result | proved | SigmaProps |
| C32 | Formula terms parsing | proved | SigmaTermsProps |
| C33 | Every declared sigma formula is decodable | partial | SigmaTermsProps |
| C34 | Options context managers restore the options | proved | OptionsProps, TightProps |
| C35 | Setting an option changes that option only | proved | OptionsProps, WrappersProps |
| C36 | A failed option change leaves the options unchanged | partial | OptionsProps |
| C37 | Unknown options are reported | proved | OptionsProps |
| C38 | Staggered-grid names round trip | proved | SGLocFormatProps, SGLocProps |
| C39 | Formatting is idempotent | partial | SGLocFormatProps |
| C40 | Location parsing respects the list of valid locations | proved | SGLocFormatProps |
| C41 | Location inferred from an array is consistent | proved | SGLocFormatProps |
| C42 | Attribute merge gives priority to the existing value | proved | SGLocPatchProps |
| C43 | Specification search follows its priority order | proved | CfMatchProps |
| C44 | Matching never crashes on attributes | partial | CfMatchProps, TightProps |
| C45 | Inherited specifications keep the child's own entries first | proved | CfInheritProps, CfReloadProps |
| C46 | Loading specifications is repeatable | proved | CfReloadProps |
| C47 | Dimension type lookup is a partial injection | proved | CfDimsProps |
| C48 | On-disk specification cache is transparent | proved | CfCache |
| C49 | Dictionary merge priority | proved | MergeListsProps, MiscMergeProps |
| C50 | Merge does not modify its inputs | proved | MiscMergeProps |
| C51 | Keyword filtering partitions the keywords | proved | MiscFilterProps |
| C52 | Order-preserving uniqueness | proved | MiscProps |
| C53 | Argument list adapters round trip | proved | MiscProps |
| C54 | Axis slices | proved | MiscAxisProps |
| C55 | Enumerated choices | proved | MiscProps |
| C56 | Numeric validators clamp and order | proved | CfgmProps |
| C57 | Patching a configuration | proved | CfgmPatchProps |
| C58 | Option names of command line and configuration correspond | partial | CfgmProps |
| C59 | Section filtering | proved | CfgmProps |
| C60 | Accessor answers do not depend on history | partial | CoordGetProps, TightProps |
| C61 | Coordinate getters honour the error mode | partial | CoordGetProps |
| C62 | Pattern matching of attributes | proved | MiscProps |
| C63 | Reordering dimensions | partial | FlushProps |
| C64 | Dimension of a coordinate and coordinate of a dimension | proved | CfDimsProps |
| C65 | Search and match across variables and coordinates | proved | CoordGetProps |
| C66 | CF name through an accessor follows the array | partial | CoordGetProps |
| C67 | Missing output coordinate in nearest1d | partial | Interp1dGapProps, Interp1dProps |
| C68 | cubic1d reproduces linear data | partial | Interp1dFormulaProps, Interp1dProps |
| C69 | Row pairing of cubic1d, hermit1d and cellave1d | partial | CellaveProps, Interp1dProps, RegridProps |
| C70 | closest2d always answers | partial | ClosestProps |
| C71 | Relative location in nearly flat or tiny cells | partial | CellLocProps |
| C72 | Every point of the grid is located | partial | GridLocProps |
| C73 | Cell edges of integer coordinates | partial | GridProps |
| C74 | Borders of the 2-D cell edges | partial | GridProps |
| C75 | Explicit dimension and coordinate names | partial | RegridNamesProps |
| C76 | Options of regrid1d | partial | ExactProps, RegridProps |
| C77 | Convolution is missing only where nothing is available | partial | FilterProps |
| C78 | Convolution is local | partial | FilterProps |
| C79 | Dimensions of the s coordinate formula | partial | SigmaProps |
| C80 | s levels never cross whatever the critical depth | partial | SigmaProps |
| C81 | Stretching types and no stretching | partial | SigmaLimitProps, SigmaProps |
| C82 | A cache never gives stale or foreign constants | partial | ExactProps, SigmaProps |
| C83 | Blanks around formula terms | partial | ExactProps, SigmaTermsProps |
| C84 | Contexts after a failed first load | partial | ExactProps, OptionsProps |
| C85 | Setting an option leaves the others | partial | OptionsProps |
| C86 | Unknown options are reported | partial | ExactProps, OptionsProps |
| C87 | Valid locations are recognised | partial | SGLocFormatProps |
| C88 | Merging with location any | partial | SGLocPatchProps |
| C89 | Labels of a search without name | partial | CfMatchProps |
| C90 | Generated long names do not hide inherited ones | partial | CfReloadProps, ExactProps |
| C91 | Known dimensions are repeatable | partial | CfReloadProps |
| C92 | Positions and locations of dimensions | partial | CfDimsProps |
| C93 | Edits of the user configuration are seen | partial | CfCache |
| C94 | Merging is associative on any values and removes duplicates as asked | partial | MergeAssocProps, MergeUniqProps, MiscMergeProps |
| C95 | Merging lists does not modify the inputs | partial | MergeListsProps, MiscMergeProps |
| C96 | Short names do not collide | partial | MiscFilterProps |
| C97 | Membership in an enumeration | partial | ExactProps, MiscProps |
| C98 | Min/max validator, integer bounds and shapes | partial | CfgmProps |
| C99 | Patching with strings and underscored sections | partial | CfgmPatchProps, ExactProps |
| C100 | Formatting one array | proved | CfFormatProps |
| C101 | Formatting an array and its coordinates | proved | CfFormatDsProps |
| C102 | Renaming leaves attributes unchanged | partial | CfFormatMoreProps |
| C103 | Filling the attributes of a dataset | proved | CfFormatMoreProps |
| C104 | Attributes of a CF name | proved | CfFormatMoreProps |
| C105 | Formatting a dataset | proved | CfFormatMoreProps |
| C106 | Formatting invents no location | partial | CfFormatMoreProps |
| C107 | Formatting twice | partial | CfFormatMoreProps |
| C108 | Unknown coordinates survive formatting | partial | CfFormatDsProps, CfFormatMoreProps, ExactProps |
| C109 | Any dataset can be formatted | partial | CfFormatMoreProps, CfFormatTotalProps |
| C110 | fill_attrs returns the filled array | partial | CfFormatMoreProps, ExactProps |
| C111 | Selecting and excluding attributes | partial | CfFormatMoreProps, ExactProps |
| C112 | Sigma functions are the formulas of the CF conventions | proved | SigmaFormulaProps |
| C113 | Accessors are registered under the requested names | partial | SimilarProps |
| C114 | are_similar compares standard name, CF name, name and long name | partial | SimilarProps |
| C115 | search_similar finds the similar array of a dataset | partial | ExactProps, SimilarProps |
| C116 | Command line options set the configuration options of their name | proved | ArgParseProps |
| C117 | An option that is not on the command line comes from the configuration file, else from the defaults | partial | ArgParseProps |
| C118 | cfgfilepatch='after' gives priority to the configuration file, without losing the command line | partial | ArgParseProps |
| C119 | The configuration given as `patch` is used by arg_parse | partial | ArgParseProps |
| C120 | A pivot colormap adapter follows the last limits | proved | ColorProps |
| C121 | A cyclic colormap adapter uses the range 0..value, and specifications are optional | partial | ColorProps, ExactProps |
| C122 | A box of four numbers is read from any separated text | partial | ValidatorsProps |
| C123 | An interval is read from any text min,max[,bounds] | partial | ValidatorsProps |
| C124 | 8-bit color components are scaled to 0..1 | partial | ValidatorsProps |
| C125 | Isotropic kernels depend only on the distance to the center | partial | FilterIsoProps |
| C126 | A window given as values is resampled linearly | partial | FilterIsoProps |
| C127 | Kernels isotropic along some dimensions | partial | FilterIsoProps |
| C128 | Loading specifications does not depend on what was loaded before | partial | CfLoadInheritProps, CfLoadProps |
| C129 | set_specs updates one item and keeps the others | partial | CfLoadProps |
| C130 | A copy of specifications has the same specifications | partial | CfReloadProps |
| C131 | Specifications by name | partial | CfAccessProps |
| C132 | Searching for several items | partial | CfAccessProps |
| C133 | Searching in given categories | partial | CfAccessProps |
| C134 | Resetting a configuration file with a backup never loses it | proved | CfgmToolsProps |
| C135 | Registering validation functions | partial | CfgmToolsProps |
| C136 | Removing the default values of a configuration | partial | CfgmToolsProps, TightProps |
| C137 | Paths of sections | proved | CfgmToolsProps |
| C138 | Extra arguments in specifications are ignored | partial | CfgmToolsProps |
| C139 | Attributes of the accessors | partial | AccessorProps |
| C140 | Specifications used by the accessors | partial | AccessorProps |
| C141 | Attributes of an array through its accessor | partial | AccessorProps |
| C142 | Formatting arrays succeeds | partial | CfFormatTotalProps |
| C143 | regrid1d end to end | partial | RegridEndProps |
| C144 | Interpolation of gridded data to random positions returns values | partial | Linear4dProps |
| C145 | The cache file of the CF specifications is used as its mode says | partial | CfCacheFileProps |
| C146 | Validation of dates, durations and ranges | partial | Validators2Props |
| C147 | Validation of dictionaries, expressions and paths | proved | Validators2Props |
| C148 | Help of the command line options | partial | CfgHelpProps |
| C149 | Conversion of the help to rst | partial | CfgHelpMoreProps, CfgHelpProps |
| C150 | Declaration of the command line options | partial | CfgHelpProps |
| C151 | Documentation of a configuration in rst | partial | CfgRstProps |
| C152 | Data samples | partial | InfoProps |
| C153 | Command line | partial | InfoProps |
| C154 | Versions and paths | proved | InfoProps |
| C155 | Printed options | partial | InfoProps |
| C156 | Choices: refusals and documentation | partial | InfoDocProps |
| C157 | Text of an enumeration | proved | InfoDocProps |
| C158 | Interpolation does not depend on the units of the coordinate | proved | CellaveUnitsProps, Interp1dUnitsProps, RegridUnitsProps |
| C159 | Interpolation is linear in the data | proved | CellaveUnitsProps, Interp1dUnitsProps, RegridUnitsProps |
| C160 | Filters and units | proved | FilterUnitsProps |
| C161 | Loading a configuration | partial | CfgLoadProps |
| C162 | A patch is not modified | partial | CfgLoadProps |
| C163 | arg_patch and cfgargparse | partial | CfgLoadProps |
| C164 | Specifications of a ConfigManager | proved | CfgInitProps |
| C165 | Specifications given to ConfigManager are not modified | partial | CfgInitProps |
| C166 | Horizontal dimensions of erode_mask | partial | XyDimsProps |
| C167 | Property dim of the accessors | partial | XyDimsProps |
| C168 | Loading with __many__ specifications | proved | CfgManyProps |
| C169 | Interpolation to random locations | partial | WrappersProps |
| C170 | Options of type cmap | partial | WrappersProps |
| C171 | auto_format of a dataset and of its variables | partial | WrappersProps |
| C172 | Built-in data variables are recognised from their names | partial | CfBuiltinProps |
| C173 | Built-in data variables are recognised from their standard names | partial | CfBuiltinProps |
| C174 | Built-in coordinates are recognised | partial | CfBuiltinAxisProps, CfBuiltinProps |
| C175 | An array formatted with a built-in variable is recognised as it | partial | CfBuiltinRoundProps |
| C176 | Types of the built-in dimension names | partial | CfBuiltinDimsProps |
| C177 | Labels of the edges of cells | partial | GridXrProps |
| C178 | Coordinate getters with the built-in specifications | partial | CfBuiltinGetProps |
| C179 | Working dimensions and coordinate inferred by regrid1d | partial | RegridNamesProps |
| C180 | Default options and reset_options | partial | TightProps |
| C181 | regrid1d(da, coord) from one end to the other | proved | RegridTopProps |
| C182 | Built-in data variables are found in a dataset | proved | CfBuiltinSearchProps |
| C183 | Integer data are interpolated as floats | partial | Interp1dIntProps |
| C184 | 1-D interpolation does not depend on the direction of the coordinates | partial | Interp1dDirProps |
| C185 | Location does not depend on the origin of the longitudes | partial | LonOriginProps |
| C186 | Larger data give larger results | proved | OrderProps |
| C187 | Each interpolated value depends on its own output coordinate only | proved | OutputPointProps |
| C188 | Filters do not depend on the order of the dimensions nor on the direction of the axes | proved | FilterTurnProps |
| C189 | Regridding commutes with selections along the other dimensions | proved | RegridPickProps |
| C190 | Cell edges follow the units and the direction of the centers | proved | EdgesUnitsProps |
| C191 | Terrain following coordinates follow the units of length and the sea surface | proved | SigmaUnitsProps |
| C192 | Cell averages in one or several steps | proved | CellaveStepsProps |
| C193 | Location does not depend on the way the grid is stored | partial | GridOrientProps |
| C194 | Arguments and class of dict_merge | partial | MergeArgsProps |
| C195 | Name formats of SGLocator | partial | SGNameProps |
| C196 | Explicit specifications in place of a name | partial | CfExplicitProps |
| C197 | Sigma terms of all the sigma variables of a dataset | partial | SigmaDecodeProps |
| C198 | Heights that decode_cf_sigma adds to a dataset | partial | SigmaDecodeProps |
| C199 | Axis of a coordinate | partial | CfItemsProps |
| C200 | Access to the CF specifications of an item | proved | CfItemsProps |
| C201 | Filtering integer data | partial | FilterIntProps |
| C202 | Kernel sizes given as integers and as floats | partial | FilterSizeProps |
| C203 | Interpolation through a finer coordinate | proved | InterpStepsProps |
| C204 | Rounding errors of the 1-D interpolations | proved | Interp1dFCubicProps, Interp1dFProps |
| C205 | Exactness of linear interpolation with rounding | partial | Interp1dFCubicProps |
| C206 | Filters with an approximate convolution | partial | FilterApproxProps |
| C207 | Filter of load | partial | CfgLoadFilterProps |
| C208 | Edges in floating-point arithmetic | proved | GridFProps |
| C209 | Cell averages in floating-point arithmetic | proved | CellaveFProps |
| C210 | Terrain following coordinates in floating-point arithmetic | proved | SigmaFProps |
| C211 | Reduced helps of the command line | partial | ShortHelpProps |
| C212 | Regridding in floating-point arithmetic, end to end | proved | RegridFProps |
| C213 | Heights of whole arrays | partial | SigmaArrProps |
| C214 | decode_cf_sigma from one end to the other | proved | SigmaEndProps |
| C215 | sessions that run at the same time | partial | CfConcProps |
| C216 | options and threads | partial | OptThreadsProps |
| C217 | A reset that is interrupted and run again | partial | ResetHistProps |
| C218 | CF specifications and threads | partial | CfThreadsProps |
| C219 | 2-D edges in floating-point arithmetic | proved | GridF2Props |
| C220 | The 1-D routines access existing elements only | partial | Interp1dSafeProps |
| C221 | Locating points reads the grid only | proved | Interp2dSafeProps |
| C222 | Filtering along two dimensions at once or one after the other | partial | FilterSepProps |
| C223 | More data never remove results | proved | MoreDataProps |
| C224 | Filtering a part of the data gives the part of the filtered data | partial | FilterPartProps |
| C225 | How far erode_mask fills | proved | ErodeDistProps |
| C226 | closest2d in floating-point arithmetic | proved | HavFProps |
| C227 | Location in a cell in floating-point arithmetic | partial | CellLocFProps |
| C228 | Transposing several times | proved | StepsProps |
| C229 | Extrapolating in several steps | proved | StepsProps |
| C230 | Errors in the data are not amplified | proved | ErrorProps |
| C231 | What a search depends on | proved | SearchMoreProps |
| C232 | Loading options in several calls | proved | OptStepsProps |
| C233 | What the Shapiro kernel keeps and removes | partial | ShapiroProps |
| C234 | Symmetric kernels keep linear fields | proved | SymKernelProps |
| C235 | Filters conserve the total | proved | FilterTotalProps |
| C236 | Eroding in several calls | proved | ErodeStepsProps |
| C237 | Closest point with errors in the positions and in a part of a grid | proved | ClosestNearProps |
| C238 | Several patches of a configuration | proved | PatchStepsProps |
| C239 | Filtering keywords in several calls | proved | FilterCallsProps |
| C240 | Heights stay between the bottom and the surface | proved | SigmaBetweenProps |
| C241 | The last location wins | proved | SGLocHistProps |
| C242 | Merging several names | partial | SGMergeHistProps |
<!-- table:end -->

## What is modelled

`tools/coverage.py` prints, for every function of `/repo/xoa`, the modules that cite it.

| file | modelled | not modelled |
|---|---|---|
| `interp.py` | all row kernels (`nearest1d`, `linear1d`, `cubic1d`, `hermit1d`, `extrap1d`, `cellave1d`, `get_iminmax`), `haversine`, `closest2d`, `cell2relloc`, `grid2relloc(s)`, `linear4dto1dxx` | numba's `fastmath` and threading beyond the order of rows |
| `regrid.py` | `regrid1d` (options, broadcasting, masks, extrapolation, end to end), `grid2loc` | - |
| `coords.py` | `transpose`, `DimFlusher1D`, `reorder`, the getters, `get_dim_types`, `get_dims` | doc helpers |
| `grid.py` | `get_edges_1d`, `get_edges_2d` | names and dimensions of the `xarray` results |
| `filter.py` | orthogonal, isotropic, given and Shapiro kernels, windows given as values, `convolve`, `erode_mask` with all its stop conditions and its choice of dimensions | window functions taken from `numpy` and `scipy.signal` (parameters) |
| `sigma.py` | all formulas, `get_cs`, `decode_formula_terms`, `get_sigma_terms`, `decode_cf_sigma` | attribute copies of the result |
| `cf.py` | `SGLocator`, specification inheritance and loading, matching, search, dimensions, formatting, similarity, cache on disk | `show_cache`, documentation decorators |
| `cf.cfg` | the whole file: `CfBuiltinRaw.lean` is its transcription by `tools/gen_cfcfg.py` (the subset of ConfigObj's syntax it uses); the loaded tables of `CfBuiltinCats.lean` (made by `tools/gen_cfcats.txt`) are checked by the kernel against the modelled loader (`builtin_loaded`) | its comments |
| `cfgm.py` | `ConfigManager` (construction, loading, patching, defaults, reset, command line, `__many__`), `filter_section`, option names, validators (numbers, bounds, boxes, intervals, colors, dates, dictionaries, paths, cmaps), help and rst output | `print_short_help`, `print_validation_functions` (printing), ConfigObj's parser |
| `misc.py` | `dict_*`, `match_*`, `Choices`, enumerations and their text, `ArgList`, `get_axis_slices`, `is_empty`, `gunique` | `is_iterable`, links of the rst documentation |
| `__init__.py`, `accessors.py` | options, accessors registry, attribute access of accessors, samples, versions, printed options | `_parse_requirements_`, wrappers that only delegate |
| `color.py` | `CmapAdapter` | `crop_cmap` (a parameter: it calls `cmocean`) |
| `cli.py` | the command and its subcommand | argparse itself (a fold over tokens) |

## Violations found by the proofs

Each item is a theorem `..._violated`/`..._counterexample`, or a hypothesis that a `_partial` theorem needs.

* **Interpolation** – `nearest1d` writes values at NaN coordinates; `cubic1d`, `hermit1d`, `cellave1d` mix up rows when the
  row counts differ; `closest2d` returns unassigned variables for an all-NaN grid (`UnboundLocalError` in Python, undefined values under numba); `cell2relloc` uses an absolute threshold (gross errors
  in tiny cells, `ZeroDivisionError` in some convex trapezoids); `grid2relloc` examines only the cell whose upper right corner is
  closest, hence never cells of the last row or column.
* **`regrid1d`** – rows are silently paired with the wrong coordinates when the input coordinate varies along another dimension
  than the last one and the output coordinate is 1-D; `UnboundLocalError` when both `dim` and `coord_in_name` are given;
  `conserv`, `bias`, `tension`, `extrap` are ignored (enumeration compared with texts); empty other dimensions fail;
  `reorder` always raises `TypeError`; an assertion fails instead of the intended error when no dimension is found.
* **Filters** – the relative tolerance loses available light neighbours; the result depends on far missing data
  through a global flag; orthogonal kernels of three or more dimensions fail; an unknown dimension in a kernel dictionary is accepted;
  `erode_mask(until=mask)` may never return; isotropic kernels with a dimension of size 1 are all NaN, and isotropic and other dimensions cannot be combined.
* **1-D interpolation of integer data** – the output has the type of the data: truncated values, and an unspecified integer instead of missing values.
* **1-D interpolation and decreasing coordinates** – a decreasing input coordinate gives missing values only, and so does an output coordinate that decreases across an input node; nothing is checked nor reversed.
* **whole turns in `grid2relloc`** – the closest point is found modulo 360° but the cell search compares raw longitudes: a target given at 361° on a grid around 1° is reported as outside.
* **`grid2relloc` in a grid stored in the opposite order** – only the cell that ends at the closest point is examined, so a target in a cell can be found when the columns are in one order and reported as outside in the other order.
* **`dict_merge` with arguments that are not dictionaries** – they are documented as skipped but give their class to the result: `dict_merge({"a": 1}, [1])` raises `TypeError`; the comments of merged `ConfigObj` come from the last argument; `dict_merge(cls=ConfigObj)` raises `UnboundLocalError`.
* **Name formats** – the fixed parts of `name_format` are not quoted in the regular expression (`{root}.{loc}` changes `temperature` into `temperatu.e`); the warning about formats without separator tests length 10 while `{root}{loc}` has 11 characters, so it is never emitted (C195).
* **Explicit specifications** – `search` documents a dictionary in place of a name but looks it up as a key: `TypeError` (C196).
* **Sigma variables of a dataset** – two sigma variables without location (centers and edges): only the last one is decoded, and inconsistent locations are not checked (C197); an existing coordinate named `depth` silently wins over the computed one, errors of the formula are raised even with `errors="ignore"`, `rename` is not used (C198).
* **Axis of grid indices** – the built-in coordinates `x` and `y` have no axis in cf.cfg, so that `get_axis` gives `None` for them (C199).
* **Filters** – integer data: the weights are truncated to integers (C201), the normalised convolution and `erode_mask` fail; whole sizes that are not `int` lose two points (C202).
* **Rounding** – in float64, `linear1d` does not give back the datum at a node, nor a constant, exactly: 0.1 at all the nodes gives
  0.10000000000000002 at one of them, out of the range of the data (C205).
* **FFT** – `convolve(normalize=True)` of complete data divides an error by an error where the kernel reaches no datum, and may give any value
  there in place of NaN (C206).
* **Filter of load** – a `ConfigManager` created without filter ignores the filter given to `load`; with validation a filtered option is reset to its
  default, not removed (C207).
* **Reduced helps** – `-h` and `--short-help` describe no option with Python 3.10 or later, where argparse titles its group "options" (`C211_title_violated`); the help of the option of the configuration file shows `{default}` (`C211_default_violated`) and another name than `--cfgfile` is hidden by `--short-help` (`C211_cfgfile_violated`).
* **Heights of arrays** – `ocean_s_coordinate_g1/_g2` raise a `ValueError` when a stretching parameter is an array of several values (`None in (thetas, thetab)` takes the truth value of an array), although `get_cs` accepts it.
* **Sessions at the same time** – two processes that clean the cache, or one that reads and one that cleans, get `FileNotFoundError` from `get_cf_specs` (`os.remove`, `os.stat` outside the try); two that write leave null bytes in the middle of the file (C215).
* **Options and threads** – `set_options` deletes the options before it loads the new ones: another thread that reads gets `KeyError`, or stores the default options over those of the session for good; the first reading by two threads may return an exception object; contexts of two threads leak (C216).
* **Reset run again** – a `reset` that is interrupted while it writes, and run again, replaces the backup by the unfinished file: the previous configuration is lost (C217).
* **CF specifications and threads** – contexts of two threads leak; two first calls of `get_cf_specs` give different objects; `KeyError` when the first context is left during a call (C218).
* **Bounds** – `nearest1d`, `linear1d`, `cubic1d` and `hermit1d` read (and may write) the element `-1` of an empty row when the output coordinates have no column; `cubic1d`, `hermit1d` and `cellave1d` read rows of the data that do not exist when the output coordinates have more rows than the data (C220).
* **Filters** – the mean along two dimensions of data with missing values is not the mean along one, then along the other one (`C222_missing_violated`), and light weights are lost at once but not in two steps (`C222_light_violated`).
* **Filtering a part** – where the kernel reaches nothing, `convolve` gives 0 or a missing value depending on whether a datum is missing anywhere in the array, so that filtering a part and taking the part of the filtered data differ there (C224).
* **Location in nearly regular cells** – in float64, `cell2relloc` uses the quadratic formula for cells that are parallelograms up to their last digits: a point in the middle of such a cell can be located
  10^15 cells away, or at 1/4 instead of 9/16; so can a point of a rectangle whose height is rounded (C227).
* **Shapiro kernel** – `shapiro_kernel` adds the indices instead of multiplying 1-D kernels: with one dimension it is `[0, 1, 0]`, which changes nothing; with two, a third of the waves of two grid steps remains (C233).
* **Edges** – `get_edges_1d` truncates for integer data; `get_edges_2d` adds borders to uninitialised memory.
* **Sigma** – `C` is undefined for `theta_s=0`; `cs_type` is ignored; levels are inverted when the bottom is above the critical depth; in-place
  addition fails when the bathymetry has more dimensions; the cache ignores changed arguments, and raises `KeyError` when shared between formulas;
  a comma is missing in the table of coordinate types; the term `sigma` is unknown; a variable used for two terms loses an argument.
* **Locations (`SGLocator`)** – the expressions are not anchored at the end ("wind_u10" is "wind_u"); the order of valid locations matters;
  formatting twice is not the same as once ("sea-temp" gives "sea-temp_t_t"); `loc=False` removes one word at each call;
  `loc=True` with valid locations raises `AttributeError`; merging with `loc="any"` writes "_any".
* **Specifications** – a child's generated `long_name` precedes its parent's; validated defaults are never inherited; duplicates are
  kept; cycles end in `RecursionError`; loading the default configuration again makes lists grow; a `(key, cfg)` pair cannot be loaded twice.
* **Search** – without a name every item is labelled with the first one; some modes raise whatever `errors` says; categories given
  as a list are ignored; a text `loc` raises `TypeError` when the array has none and is compared as a substring.
* **Dimensions and getters** – `get_dims` may answer a dimension twice or raise `IndexError`; getters of longitude, latitude, depth and altitude ignore
  `errors`; `get_vertical` always raises when nothing is found; the accessors' `xdim`, `ydim`… always raise `TypeError`;
  `da.xoa.cf` is `None`; names and attributes are cached forever.
* **Formatting** – coordinates without match are renamed to `None`; `attrs=False` still changes attributes; `fill_attrs(DataArray)` returns a name and
  loses the filled copy; `format_dataset` ignores `standardize` and `coords`; `get_attrs` ignores its selection and extends the caller's list.
* **Accessors** – the name given as `xoa` is ignored; `are_similar` needs an accessor registered as "cf"; `search_similar` always fails for a dataset.
* **`arg_parse`** – boolean flags that are not given override the configuration file; `cfgfilepatch="after"` loses
  the command line for options that the file does not have; a configuration given as `patch` is overwritten by the defaults; keys with dashes or
  blanks are never set; options with the same flat name conflict; only the last extra option is added.
* **Loading and copies** – loading a user file changes what a later load of the default file gives, and lists grow; `set_specs` forgets the items
  that come from elsewhere than files, hence all of them on a `copy()`; the copy has the names of coordinates twice in its known dimensions.
* **Built-in specifications (`cf.cfg`)** – some items are shadowed by others that accept the same name; `ke`, `eke`, `mke`, `tke` and `t2m` have
  their standard name where it is not read, hence cannot be found by it; `match` of a depth with the attribute axis `Z` raises `TypeError`, while
  the axis `Z` alone makes `get_depth` give an altitude or a level;
  `nav_lon`, `nav_lat` and `model_level` have no dimension type.
* **Colors and validators** – an adapter without specifications raises `AttributeError`; "cyc<x>" is replaced by 0..360; `is_bbox` refuses a comma followed
  by a blank and fails on lists; `is_interval` truncates the bounds; 8-bit colors are divided by 256; `is_daterange` and `is_cdtime` use names that do not exist.

## Tests of the theorems against wrong programs

`seeded/LOG.jsonl` has one line per wrong program tried: the definition of the model that was edited in a scratch copy, the claim that
the edit breaks, the theorems that then failed to prove and, when a theorem had to be tightened, which one.

## Not modelled at all

Printing helpers (`print_short_help`, `print_validation_functions`, `show_cache`), `xoa_warn`, `_parse_requirements_`, and
the one-line methods that only delegate to a modelled function (`tools/coverage.py` lists them with `-`).
