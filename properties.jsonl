{"id": "C01", "title": "First/last valid index", "statement": "get_iminmax returns exactly the index of the first and of the last non-NaN value of a 1-D array, and (-1,-1) exactly when every value is NaN.", "quantifier": "every 1-D array of every length, any placement of NaNs", "why_tests_cant": "the early break and the two simultaneous scans must agree with the first/last valid index for every NaN pattern of every length", "anchors": ["xoa/interp.py:get_iminmax"]}
{"id": "C02", "title": "Linear interpolation is the piecewise-linear interpolant", "statement": "linear1d, for an ascending input coordinate row and an ascending output coordinate row, returns at each output coordinate the linear blend of the two input values bracketing it, and NaN wherever the output coordinate lies outside the valid range of the input coordinate; on a node or inside a cell of non-missing values the result lies between the two bracketing values.", "quantifier": "every row length, every ascending pair of coordinates (possibly NaN padded at both ends), every input data, every output index", "why_tests_cant": "the scan skips, breaks and moves its start index; only an induction over the loop shows that no output point is ever missed or written from a wrong interval", "anchors": ["xoa/interp.py:linear1d"]}
{"id": "C03", "title": "Nearest interpolation returns a nearest input value", "statement": "nearest1d returns at each output coordinate within the input range the input value of a bracketing node whose coordinate is at minimal distance among all input nodes; outside the range it returns NaN.", "quantifier": "every row length, every ascending pair of coordinates, every data, every output index", "why_tests_cant": "minimality is over all input nodes and must survive the skipping scan for all coordinates", "anchors": ["xoa/interp.py:nearest1d"]}
{"id": "C04", "title": "Missing output coordinate gives a missing output", "statement": "For linear1d, cubic1d and hermit1d, an output position whose coordinate is NaN receives NaN, wherever it is and whatever the other values are. (nearest1d: C67)", "quantifier": "every method, every NaN pattern in the output coordinate, every data", "why_tests_cant": "NaN comparisons are all false, so one fall-through branch among all scan states is enough to write a value", "anchors": ["xoa/interp.py:nearest1d", "xoa/interp.py:linear1d", "xoa/interp.py:cubic1d", "xoa/interp.py:hermit1d"]}
{"id": "C05", "title": "Cubic and Hermite interpolation pass through the nodes", "statement": "cubic1d and hermit1d (any bias, any tension) give the input value itself at an output coordinate equal to an input node with non-missing neighbours and NaN outside the input range; hermit1d reproduces constant data everywhere inside the range and, with zero tension, data linear in the node index. (cubic1d on constant and linear data: C68)", "quantifier": "every row length, ascending coordinates, every data, every bias and tension, every output index", "why_tests_cant": "polynomial identities must hold for all values, and the scan must reach each output in the right interval", "anchors": ["xoa/interp.py:cubic1d", "xoa/interp.py:hermit1d"]}
{"id": "C06", "title": "Row pairing of the 1-D routines", "statement": "Output row ix of linear1d and nearest1d depends only on row ix mod nxi of the data, row ix mod nxiy of the input coordinate and row ix mod nxo of the output coordinate, and these indices are always valid, so the call neither reads out of bounds nor mixes rows. (The other routines: C69)", "quantifier": "every number of rows nxi, nxiy, nxo (not only equal ones), every data", "why_tests_cant": "the claim ranges over all row counts; an index used without the modulo only fails when the counts differ", "anchors": ["xoa/interp.py:nearest1d", "xoa/interp.py:linear1d", "xoa/interp.py:cubic1d", "xoa/interp.py:hermit1d", "xoa/interp.py:cellave1d"]}
{"id": "C07", "title": "Schedule independence of the parallel loops", "statement": "The result of the routines compiled with a parallel outer loop does not depend on the order or interleaving in which the rows are processed, because each row of the output is written by one iteration only and no iteration reads a row written by another.", "quantifier": "every schedule (every permutation of the row iterations), every number of rows", "why_tests_cant": "a test run exercises one schedule; independence is a statement on all of them", "anchors": ["xoa/interp.py:nearest1d", "xoa/interp.py:linear1d", "xoa/interp.py:cubic1d", "xoa/interp.py:hermit1d", "xoa/interp.py:extrap1d"]}
{"id": "C08", "title": "Extrapolation only fills the requested ends", "statement": "extrap1d keeps every non-missing value and every interior gap, fills exactly the leading and/or trailing missing values asked for with the first/last valid value, leaves all-missing rows untouched, leaves everything untouched in mode 'no', and applying it twice is the same as once.", "quantifier": "every row, every mode, every NaN pattern", "why_tests_cant": "needs all NaN patterns of all lengths", "anchors": ["xoa/interp.py:extrap1d"]}
{"id": "C09", "title": "Conservative cell averaging conserves the integral", "statement": "cellave1d with conserv=True returns values whose sum weighted by the output cell widths equals the sum of the non-missing input values weighted by the length of their overlap with the output grid; in particular the total is conserved when the output grid covers the input grid.", "quantifier": "every ascending cell-edge arrays, every data with missing values, every sizes", "why_tests_cant": "the moving start index and the two breaks must never drop or double count an overlap, whatever the edges", "anchors": ["xoa/interp.py:cellave1d"]}
{"id": "C10", "title": "Cell averaging is an average", "statement": "cellave1d with conserv=False returns on each output cell of positive width the overlap-weighted mean of the non-missing input values overlapping it, hence a value between their min and max (a constant field stays constant) and NaN if nothing overlaps.", "quantifier": "every ascending cell edges, every data with missing values", "why_tests_cant": "bound and constancy must hold for all edges and NaN patterns", "anchors": ["xoa/interp.py:cellave1d"]}
{"id": "C11", "title": "Great circle distance", "statement": "haversine is symmetric in its two points, is zero for identical points, lies in [0, pi], is unchanged when 360 degrees are added to a longitude, and its inner square root and arc-sine arguments always stay in their domains.", "quantifier": "all real longitudes and latitudes", "why_tests_cant": "domain and symmetry facts over the reals; a sample cannot exclude an out-of-domain argument", "anchors": ["xoa/interp.py:haversine"]}
{"id": "C12", "title": "Closest grid point", "statement": "When closest2d returns indices, they are valid indices of the grid, of a point whose distance to the target is minimal over the whole 2-D grid (the first one in the order of the loops), points with NaN coordinates being left out. (When it returns: C70)", "quantifier": "every grid size, every lon/lat grid and target", "why_tests_cant": "minimality over all points of all grids; the initial bound only matters for an exceptional grid", "anchors": ["xoa/interp.py:closest2d"]}
{"id": "C13", "title": "Relative location in a cell inverts the bilinear map", "statement": "In cells whose lower and upper edges are parallel or not nearly so (cross product at least 2 eps): when cell2relloc returns (p,q), the bilinear combination of the four cell corners with weights given by p and q is the target point; a target lying in the cell is located in [0,1]x[0,1]; a target generated from p,q in [0,1] in a parallelogram or strictly convex cell gives back exactly p,q unless a division by zero is raised, and the cells where it can be raised are characterised. (Other cells: C71)", "quantifier": "all quadrilateral cells and all targets for which the computation is defined", "why_tests_cant": "algebraic identity with square roots over all reals and all branches", "anchors": ["xoa/interp.py:cell2relloc"]}
{"id": "C14", "title": "Relative location in a grid", "statement": "grid2relloc returns either (-1,-1) or a location whose integer parts are valid cell indices and whose fractional parts locate the target in that cell by the bilinear map; a target that is in no cell gives (-1,-1); grid2rellocs does the same for each point of a list. (Which targets are located: C72)", "quantifier": "every curvilinear grid size and geometry, every target", "why_tests_cant": "the candidate window depends on the position of the closest corner; the claim must hold for all of them including the borders", "anchors": ["xoa/interp.py:grid2relloc", "xoa/interp.py:grid2rellocs"]}
{"id": "C15", "title": "Cell edges enclose the centers", "statement": "get_edges_1d of n>=2 centers returns n+1 edges along the axis, interior edges are midpoints, strictly increasing centers give strictly increasing edges that strictly separate the centers, a regular grid gives regular edges, and shifting the centers shifts the edges. (Centers stored as floating point numbers; integers: C73.)", "quantifier": "every length >= 2, every center array", "why_tests_cant": "interleaving must hold for arbitrary spacing and length", "anchors": ["xoa/grid.py:get_edges_1d"]}
{"id": "C16", "title": "2-D cell edges", "statement": "get_edges_2d of a ny x nx grid (ny,nx>=2) puts interior corners at the mean of the four surrounding centers, whatever the rest, and refuses smaller grids. (Borders: C74)", "quantifier": "every grid size and every coordinates", "why_tests_cant": "dependence on uninitialised memory shows only for some heap contents; must hold for all", "anchors": ["xoa/grid.py:get_edges_2d"]}
{"id": "C17", "title": "Named transposition keeps data and never duplicates dimensions", "statement": "transpose in 'compat' and 'insert' modes returns an array with the same values at the same named positions, the requested dimensions in the requested order at the right, the unmentioned ones kept in their relative order at the left, and inserted dimensions of size one; the result does not depend on the mode when the requested dimensions are those of the array.", "quantifier": "every array, every list of distinct dimension names, every mode", "why_tests_cant": "ranges over all ranks, subsets and orders of dimensions", "anchors": ["xoa/coords.py:transpose", "xoa/coords.py:transpose_modes"]}
{"id": "C18", "title": "Regridding goes back to the original layout", "statement": "The dimension flattening used by regrid1d is undone exactly: after flattening to (rows, work dim) and restoring, each output value sits at the same coordinates of the other dimensions as the input row it was computed from, and the working dimension is at its original place.", "quantifier": "every rank, every dimension order, every position of the working dimension, input coordinate of any compatible rank", "why_tests_cant": "row-major flattening round trip for arbitrary shapes and orders", "anchors": ["xoa/coords.py:DimFlusher1D"]}
{"id": "C19", "title": "Regridding pairs each data row with its own coordinate row", "statement": "When the input or output coordinate varies along some of the other dimensions of the data, each data row is interpolated with the coordinate row that has the same position along these dimensions.", "quantifier": "every combination of data dimensions and coordinate dimensions accepted by regrid1d", "why_tests_cant": "a mispairing is silent and only happens for some dimension orders", "anchors": ["xoa/coords.py:DimFlusher1D", "xoa/interp.py:linear1d"]}
{"id": "C20", "title": "Incompatible coordinates are refused", "statement": "regrid1d raises an error when input data and output coordinate both have dimensions the other has not, or share a dimension of different sizes, and accepts otherwise. (Names given by the caller: C75)", "quantifier": "every pair of dimension sets and sizes", "why_tests_cant": "quantifies over all dimension layouts", "anchors": ["xoa/coords.py:DimFlusher1D"]}
{"id": "C21", "title": "Regridding method dispatch", "statement": "regrid1d applies the interpolation the caller named (None means linear) by name, alias or number, and refuses unknown methods and extrapolation modes. (Other options: C76)", "quantifier": "every method name, number or None, every option value", "why_tests_cant": "an option silently dropped on one path is invisible unless every method and option is quantified over", "anchors": ["xoa/regrid.py:regrid1d", "xoa/regrid.py:regrid1d_methods", "xoa/regrid.py:extrap_modes"]}
{"id": "C22", "title": "Normalised convolution is a weighted mean", "statement": "convolve with normalize=True and a nonnegative kernel returns at each point either a missing value or a weighted mean of the non-missing neighbours, of which there is then at least one (so it lies between their min and max and preserves constants); shape and dims are kept; when no datum is missing, the result is missing exactly where the kernel reaches no datum. (Where it is missing when some data are: C77)", "quantifier": "every data, every missing pattern, every nonnegative kernel of any size", "why_tests_cant": "bounds must hold for all kernels and missing patterns including borders", "anchors": ["xoa/filter.py:_convolve_", "xoa/filter.py:convolve"]}
{"id": "C23", "title": "Plain convolution is linear and identity-preserving", "statement": "convolve with normalize=False on data without missing values is linear in the data and in the kernel, and the unit impulse kernel of odd size returns the data unchanged.", "quantifier": "every data, every kernel", "why_tests_cant": "algebraic laws over all arrays", "anchors": ["xoa/filter.py:_convolve_", "xoa/filter.py:convolve"]}
{"id": "C24", "title": "Missing values do not leak", "statement": "The result of convolve at a point depends only on the data inside the support of the kernel around this point and on whether some datum is missing anywhere: the values elsewhere have no effect. (Independence of far missing data: C78)", "quantifier": "every data, kernel, position", "why_tests_cant": "locality over all positions and kernels", "anchors": ["xoa/filter.py:_convolve_"]}
{"id": "C25", "title": "Mask erosion keeps valid data and only shrinks the mask", "statement": "erode_mask never changes a valid value, never makes a valid point missing, fills missing points only with a weighted mean of valid neighbours, and n iterations erode at least as much as m<=n.", "quantifier": "every data, every kernel, every number of iterations", "why_tests_cant": "induction over the number of iterations", "anchors": ["xoa/filter.py:erode_mask", "xoa/filter.py:_convolve_and_fill_"]}
{"id": "C26", "title": "Mask erosion down to a mask terminates", "statement": "erode_mask called with a target mask returns after finitely many iterations for every data and target mask.", "quantifier": "every data, target mask, kernel", "why_tests_cant": "termination cannot be tested", "anchors": ["xoa/filter.py:erode_mask"]}
{"id": "C27", "title": "Kernel generation", "statement": "generate_kernel returns a kernel with one dimension per data dimension in the data's order, of size one along unspecified dimensions, equal to the tensor product of the 1-D windows asked for; orthogonal and shapiro kernels are symmetric and nonnegative.", "quantifier": "every number of dimensions and sizes", "why_tests_cant": "ranges over all ranks and sizes", "anchors": ["xoa/filter.py:generate_kernel", "xoa/filter.py:generate_orthogonal_kernel", "xoa/filter.py:shapiro_kernel"]}
{"id": "C28", "title": "Sigma coordinates reach bottom and surface", "statement": "For each of the CF ocean sigma/s formulas, the computed depth equals -bathymetry at the bottom level (s=-1, C=-1) and the sea surface height at the surface level (s=0, C=0). (Dimensions of the arguments of ocean_s_coordinate: C79)", "quantifier": "all real bathymetry, sea surface height, stretching parameters", "why_tests_cant": "real-number identity for all parameters", "anchors": ["xoa/sigma.py:ocean_sigma_coordinate", "xoa/sigma.py:ocean_s_coordinate", "xoa/sigma.py:ocean_s_coordinate_g1", "xoa/sigma.py:ocean_s_coordinate_g2"]}
{"id": "C29", "title": "Sigma levels are ordered", "statement": "Depth increases strictly with the level for each formula whenever the water column is positive and the stretching function is increasing (for ocean_s_coordinate and g1: where the bathymetry is not less than the critical depth hc, itself below the sea surface; see C80 for the rest), so levels never cross.", "quantifier": "all parameters in the physical range, all pairs of levels", "why_tests_cant": "monotonicity over the reals", "anchors": ["xoa/sigma.py:ocean_sigma_coordinate", "xoa/sigma.py:ocean_s_coordinate_g1", "xoa/sigma.py:ocean_s_coordinate_g2", "xoa/sigma.py:atmosphere_sigma_coordinate"]}
{"id": "C30", "title": "Stretching function", "statement": "get_cs returns 0 at s=0 and -1 at s=-1 for every theta_s > 0 and theta_b in [0,1], is increasing in s and stays in [-1,0]. (Types and theta_s = 0: C81)", "quantifier": "all real theta_s>0, theta_b in [0,1], s in [-1,0]", "why_tests_cant": "transcendental inequalities over the reals", "anchors": ["xoa/sigma.py:get_cs"]}
{"id": "C31", "title": "Cached sigma constants give the same result", "statement": "Calling a sigma formula several times with the same cache dictionary and the same arguments but the sea surface height gives the same result as without cache, whatever the sequence of sea surface heights. (Other arguments: C82)", "quantifier": "every sequence of calls sharing a cache", "why_tests_cant": "history dependent: the content of the cache depends on all previous calls", "anchors": ["xoa/sigma.py:ocean_sigma_coordinate", "xoa/sigma.py:ocean_s_coordinate", "xoa/sigma.py:ocean_s_coordinate_g1", "xoa/sigma.py:ocean_s_coordinate_g2", "xoa/sigma.py:atmosphere_sigma_coordinate"]}
{"id": "C32", "title": "Formula terms parsing", "statement": "decode_formula_terms applied to any well formed 'term: variable term: variable' attribute returns exactly the mapping from terms to variables, whatever the number of terms and the amount of blanks between them; a term given twice has its last variable. (Outer blanks: C83)", "quantifier": "every list of (term, variable) identifiers", "why_tests_cant": "unbounded strings", "anchors": ["xoa/sigma.py:decode_formula_terms"]}
{"id": "C33", "title": "Every declared sigma formula is decodable", "statement": "decode_cf_sigma handles every CF sigma coordinate type for which the library has a formula function: the type is recognised and each of its formula terms is mapped to a variable.", "quantifier": "all sigma coordinate types and terms known to the library", "why_tests_cant": "table consistency over all entries, silently broken by an implicit string concatenation", "anchors": ["xoa/sigma.py:SIGMA_COORDINATE_TYPES", "xoa/sigma.py:FORMULA_TERMS_TO_CF_NAMES", "xoa/sigma.py:get_sigma_terms"]}
{"id": "C34", "title": "Options context managers restore the options", "statement": "Leaving a set_options context entered with options that were loaded successfully (or set_cf_specs in any state) restores exactly the options that were in force on entry, however contexts are nested, whatever options are loaded, set or reset inside, and even if the body raises, in which case the exception is propagated. (After a failed first load: C84)", "quantifier": "every nesting depth, every sequence of option operations in the body, every crash point", "why_tests_cant": "all histories and exceptions", "anchors": ["xoa/__init__.py:set_options", "xoa/cf.py:set_cf_specs"]}
{"id": "C35", "title": "Setting an option changes that option only", "statement": "After set_options(section, opt=val), get_option(section,opt) is val as converted by the validation; for a string option it is val itself. (Other options: C85)", "quantifier": "every history of option operations before the call", "why_tests_cant": "history dependent", "anchors": ["xoa/__init__.py:set_options", "xoa/__init__.py:get_option", "xoa/__init__.py:load_options"]}
{"id": "C36", "title": "A failed option change leaves the options unchanged", "statement": "If set_options, set_option or load_options raises, the options in force are those before the call.", "quantifier": "every history and every failing call", "why_tests_cant": "crash-point property", "anchors": ["xoa/__init__.py:set_options", "xoa/__init__.py:set_option"]}
{"id": "C37", "title": "Unknown options are reported", "statement": "get_option returns the value of an existing option in both the dotted and the two-argument forms, which agree for every separator, and raises for a section name without option name. (Unknown options: C86)", "quantifier": "every section and option string", "why_tests_cant": "all strings", "anchors": ["xoa/__init__.py:get_option"]}
{"id": "C38", "title": "Staggered-grid names round trip", "statement": "Parsing the name, standard_name or long_name produced by formatting a root with a known location gives back that root and that location (in lower case), for every root of word characters (and blanks, in long names), every location made of letters and every locator whose name format is a root, a separator without letters and the location; in names, no other declared location may be the beginning of the location (see C87).", "quantifier": "every root string and location string, every attribute kind, every such locator and list of declared locations", "why_tests_cant": "unbounded strings and regular-expression backtracking", "anchors": ["xoa/cf.py:SGLocator.format_attr", "xoa/cf.py:SGLocator.parse_attr"]}
{"id": "C39", "title": "Formatting is idempotent", "statement": "Formatting an attribute twice with the same location is the same as formatting it once, for each location mode (keep, set, remove).", "quantifier": "every attribute value and location argument", "why_tests_cant": "all strings", "anchors": ["xoa/cf.py:SGLocator.format_attr"]}
{"id": "C40", "title": "Location parsing respects the list of valid locations", "statement": "When valid locations are declared, parsing never returns a location outside the list. (Recognition: C87)", "quantifier": "every list of valid locations, every name", "why_tests_cant": "alternation order in a regular expression over all lists", "anchors": ["xoa/cf.py:SGLocator.__init__", "xoa/cf.py:SGLocator.parse_attr"]}
{"id": "C41", "title": "Location inferred from an array is consistent", "statement": "get_location returns a location only if all of name, standard_name and long_name that carry a location agree, and raises an error if two of them differ.", "quantifier": "every combination of attributes present or absent", "why_tests_cant": "all combinations and strings", "anchors": ["xoa/cf.py:SGLocator.get_location"]}
{"id": "C42", "title": "Attribute merge gives priority to the existing value", "statement": "Merging or patching attributes never loses an existing attribute: without replace, the root of an existing value that is compatible is kept, attributes absent from the patch are unchanged, and with replace the patch wins. (loc='any': C88)", "quantifier": "every attribute dictionaries and location", "why_tests_cant": "all dictionaries", "anchors": ["xoa/cf.py:SGLocator.merge_attr", "xoa/cf.py:SGLocator.patch_attrs"]}
{"id": "C43", "title": "Specification search follows its priority order", "statement": "Searching a dataset for a specification returns the first object matching the highest-priority criterion (name, then standard_name, etc. in the declared order), the result contains only matching objects, no object twice, and a single search returns an element of the multiple search or nothing. (Labels of a search without name: C89)", "quantifier": "every dataset, every specification, every search order", "why_tests_cant": "all object collections and attribute contents", "anchors": ["xoa/cf.py:_CFCatSpecs_.search", "xoa/cf.py:_CFCatSpecs_.match", "xoa/misc.py:match_attrs"]}
{"id": "C44", "title": "Matching never crashes on attributes", "statement": "Asking whether an array matches the known coordinates or variables always returns an answer, whatever attributes the array has.", "quantifier": "every attribute dictionary", "why_tests_cant": "a specification lacking a criterion only crashes for attribute combinations reaching it", "anchors": ["xoa/cf.py:_CFCatSpecs_.match", "xoa/cf.py:CFSpecs.match", "xoa/cf.cfg"]}
{"id": "C45", "title": "Inherited specifications keep the child's own entries first", "statement": "After loading, each specification that inherits from another contains its own values with priority and the parent's missing ones, its own names first, and loading terminates for every acyclic inheritance graph. (Generated long names: C90)", "quantifier": "every acyclic inheritance graph and every specification contents", "why_tests_cant": "all graphs; termination", "anchors": ["xoa/cf.py:CFSpecs._process_entry_", "xoa/cf.py:CFSpecs._post_process_"]}
{"id": "C46", "title": "Loading specifications is repeatable", "statement": "Building the specifications several times in the same session from the same configuration gives the same entries (names, attributes, inherited values), although they are processed in place in the cached configuration. (Dimensions: C91)", "quantifier": "every sequence of loads", "why_tests_cant": "history dependent aliasing", "anchors": ["xoa/cf.py:CFSpecs._load_cfg_as_dict_", "xoa/cf.py:CFSpecs.load_cfg", "xoa/misc.py:dict_merge"]}
{"id": "C47", "title": "Dimension type lookup is a partial injection", "statement": "get_dims(da, types) without positional guess, for distinct types, returns dimensions of da, one per requested type, distinct for distinct types, with None or an error only for types that are not found, is consistent with get_dim_types, and with errors='ignore' raises only if the type of a dimension cannot be asked. (Other cases: C92)", "quantifier": "every array and every list of types", "why_tests_cant": "all dims layouts", "anchors": ["xoa/cf.py:CFCoordSpecs.get_dims", "xoa/cf.py:CFCoordSpecs.get_dim_types", "xoa/cf.py:CFCoordSpecs.get_dim_type"]}
{"id": "C48", "title": "On-disk specification cache is transparent", "statement": "In every cache mode get_cf_specs returns in a new session the specifications of the current configuration after every history of calls, sessions, crashes while writing, corruptions and removals of the cache file, and upgrades of the library (without edits of the user file, see C93, except in the modes that do not read the cache file), successive calls of a session agree, and a corrupted cache file never makes it fail.", "quantifier": "every cache mode, cache content and crash point while writing", "why_tests_cant": "crash points and staleness histories", "anchors": ["xoa/cf.py:get_cf_specs", "xoa/cf.py:reset_cache", "xoa/cf.py:_get_cfgm_"]}
{"id": "C49", "title": "Dictionary merge priority", "statement": "dict_merge gives each key the value of the first dictionary that has it (recursively in sub-dictionaries), every key of every input appears in the output, merging is idempotent, and associative on plain values (other values and uniquify: C94), and lists are concatenated in order when asked.", "quantifier": "every list of nested dictionaries", "why_tests_cant": "recursive structure", "anchors": ["xoa/misc.py:dict_merge"]}
{"id": "C50", "title": "Merge does not modify its inputs", "statement": "dict_merge without mergelists returns a new dictionary and leaves the lists of the dictionaries it was given unchanged. (With mergelists: C95)", "quantifier": "every inputs and options", "why_tests_cant": "aliasing shows only for some options and nesting", "anchors": ["xoa/misc.py:dict_merge"]}
{"id": "C51", "title": "Keyword filtering partitions the keywords", "statement": "dict_filter(kw, prefix) returns exactly the keywords with the prefix (short or full names as asked), removes exactly these from kw unless copy is requested, and nothing is lost or duplicated. (Short names that collide: C96)", "quantifier": "every dictionary, prefix and flags", "why_tests_cant": "all strings", "anchors": ["xoa/misc.py:dict_filter"]}
{"id": "C52", "title": "Order-preserving uniqueness", "statement": "gunique yields each distinct element exactly once, in order of first occurrence; and is idempotent.", "quantifier": "every sequence", "why_tests_cant": "all sequences", "anchors": ["xoa/misc.py:gunique"]}
{"id": "C53", "title": "Argument list adapters round trip", "statement": "ArgList/ArgTuple give back a scalar for a scalar and a list for a list: put(get()) of untouched arguments is the original argument, and put of mapped arguments keeps the container kind.", "quantifier": "every argument and mapping function", "why_tests_cant": "parametric", "anchors": ["xoa/misc.py:ArgList", "xoa/misc.py:ArgTuple"]}
{"id": "C54", "title": "Axis slices", "statement": "For each axis of an n-dimensional array get_axis_slices selects along that axis only: first and all-but-first (resp. last and all-but-last) partition the axis, mid removes both ends, and other axes are entirely selected.", "quantifier": "every rank, axis (positive or negative) and axis length", "why_tests_cant": "all shapes", "anchors": ["xoa/misc.py:get_axis_slices"]}
{"id": "C55", "title": "Enumerated choices", "statement": "Choices and enumerations normalise every accepted spelling to its canonical member, are idempotent, refuse everything else with an explicit error, and None means the default. (Membership: C97)", "quantifier": "every enumeration and candidate value", "why_tests_cant": "all strings and numbers", "anchors": ["xoa/misc.py:Choices", "xoa/misc.py:XEnumMeta", "xoa/misc.py:DefaultEnumMeta"]}
{"id": "C56", "title": "Numeric validators clamp and order", "statement": "The numeric list validators return values within [min,max] (bounds of the asked type), keep the number of values, leave a value already valid unchanged (idempotence), and refuse a wrong number of values; the list wrapper keeps the kind and applies the validator to each item. (Min/max validator, other bounds, shape: C98)", "quantifier": "every list of numbers and bounds", "why_tests_cant": "all lists", "anchors": ["xoa/cfgm.py:is_numerics", "xoa/cfgm.py:is_minmax", "xoa/cfgm.py:is_bbox", "xoa/cfgm.py:_valwraplist_"]}
{"id": "C57", "title": "Patching a configuration", "statement": "ConfigManager.patch sets exactly the options present in the patch (in sections whose names have no underscore at their ends) to their value converted to the type of the current value if possible, so to their value when the types agree, leaves all other options unchanged, and patching twice with the same patch is the same as once. (Other cases: C99)", "quantifier": "every nested configuration and patch", "why_tests_cant": "recursive structure", "anchors": ["xoa/cfgm.py:ConfigManager.patch", "xoa/cfgm.py:_walker_patch_"]}
{"id": "C58", "title": "Option names of command line and configuration correspond", "statement": "Converting a configuration option path to a command line option name and back gives the same configuration name, and distinct options get distinct command line names.", "quantifier": "every section path and option name", "why_tests_cant": "all strings", "anchors": ["xoa/cfgm.py:_opt2cfgname_", "xoa/cfgm.py:_cfg2optname_", "xoa/cfgm.py:get_sec_names"]}
{"id": "C59", "title": "Section filtering", "statement": "filter_section keeps exactly the options selected by the filter, the default decision applies to unmentioned ones, and filtering twice is the same as once.", "quantifier": "every nested section and filter", "why_tests_cant": "recursive structure", "anchors": ["xoa/cfgm.py:filter_section"]}
{"id": "C60", "title": "Accessor answers do not depend on history", "statement": "The dimension returned by the array accessor for a type does not depend on which other types were asked before.", "quantifier": "every sequence of accesses", "why_tests_cant": "history dependent memoisation", "anchors": ["xoa/accessors.py:_CoordAccessor_.get_dim"]}
{"id": "C61", "title": "Coordinate getters honour the error mode", "statement": "get_vertical, get_lon and the other coordinate getters raise when nothing is found with errors='raise' and return None with errors='ignore'; the vertical getter returns the first found among depth, altitude, level.", "quantifier": "every dataset and error mode", "why_tests_cant": "all datasets", "anchors": ["xoa/coords.py:get_vertical", "xoa/coords.py:get_lon", "xoa/coords.py:get_level", "xoa/coords.py:get_cf_coords"]}
{"id": "C62", "title": "Pattern matching of attributes", "statement": "match_string and match_attrs accept a value exactly when it equals, ignoring case and surrounding blanks, one of the given strings (or satisfies one of the given patterns), independently of the order of the candidates.", "quantifier": "every string and list of checks", "why_tests_cant": "all strings", "anchors": ["xoa/misc.py:match_string", "xoa/misc.py:match_attrs"]}
{"id": "C63", "title": "Reordering dimensions", "statement": "reorder(da, order) returns the array with its dimensions ordered by type as asked and the same data at the same named positions.", "quantifier": "every array and order string", "why_tests_cant": "all orders", "anchors": ["xoa/coords.py:reorder", "xoa/coords.py:get_dim_types"]}
{"id": "C64", "title": "Dimension of a coordinate and coordinate of a dimension", "statement": "search_dim without a type returns a dimension of the array that has the type of the array, or its only dimension; search_from_dim returns a coordinate that has the asked dimension, of the type of that dimension and with the most dimensions among those, or the coordinate of the same name when no other one has the dimension; a name that is not a dimension is refused.", "quantifier": "every array, set of coordinates and dimension name", "why_tests_cant": "all arrays and sets of coordinates", "anchors": ["xoa/cf.py:CFCoordSpecs.search_dim", "xoa/cf.py:CFCoordSpecs.search_from_dim"]}
{"id": "C65", "title": "Search and match across variables and coordinates", "statement": "CFSpecs.search for a name looks first in the data variables of a dataset (first in the coordinates of an array) and then in the other category and returns the first found; when nothing is found it raises, warns or is silent as asked. CFSpecs.match returns the category and the name of the first category with a match, beginning with coordinates for a coordinate array and data variables otherwise.", "quantifier": "every dataset or array, name, location and error mode", "why_tests_cant": "all datasets and specifications", "anchors": ["xoa/cf.py:CFSpecs.search", "xoa/cf.py:CFSpecs.match"]}
{"id": "C66", "title": "CF name through an accessor follows the array", "statement": "Reading the CF name or the CF attributes of an array through its accessor gives the result of matching the array as it is at that moment, however often and after whatever changes it is read.", "quantifier": "every array, every sequence of in-place changes and accesses", "why_tests_cant": "all histories of accesses", "anchors": ["xoa/accessors.py:CFDataArrayAccessor.name", "xoa/accessors.py:CFDataArrayAccessor.attrs"]}
{"id": "C67", "title": "Missing output coordinate in nearest1d", "statement": "nearest1d gives NaN at an output position whose coordinate is NaN, wherever it is and whatever the other values are.", "quantifier": "every data, input and output coordinate rows", "why_tests_cant": "it is a statement about every such input; tests sample a few", "anchors": ["xoa/interp.py:nearest1d"]}
{"id": "C68", "title": "cubic1d reproduces linear data", "statement": "cubic1d reproduces data that are linear in the node index everywhere inside the range, as it reproduces constant data.", "quantifier": "every input row and output coordinate inside the range", "why_tests_cant": "it is a statement about every such input; tests sample a few", "anchors": ["xoa/interp.py:cubic1d"]}
{"id": "C69", "title": "Row pairing of cubic1d, hermit1d and cellave1d", "statement": "As for linear1d and nearest1d (C06), output row ix of cubic1d, hermit1d and cellave1d depends only on row ix mod nxi of the data, row ix mod nxiy of the input coordinate and row ix mod nxo of the output coordinate, whatever the numbers of rows.", "quantifier": "every combination of numbers of rows", "why_tests_cant": "it is a statement about every such input; tests sample a few", "anchors": ["xoa/interp.py:cubic1d", "xoa/interp.py:hermit1d", "xoa/interp.py:cellave1d"]}
{"id": "C70", "title": "closest2d always answers", "statement": "closest2d returns valid indices for every non-empty grid and every target.", "quantifier": "every grid with at least one point and every target", "why_tests_cant": "it is a statement about every such input; tests sample a few", "anchors": ["xoa/interp.py:closest2d"]}
{"id": "C71", "title": "Relative location in nearly flat or tiny cells", "statement": "cell2relloc returns, without raising, a location whose bilinear image is the target for every target in a convex cell, however small or oriented, including the cells whose lower and upper edges are nearly but not exactly parallel.", "quantifier": "every convex cell and every target inside", "why_tests_cant": "it is a statement about every such input; tests sample a few", "anchors": ["xoa/interp.py:cell2relloc"]}
{"id": "C72", "title": "Every point of the grid is located", "statement": "grid2relloc returns a location for every target lying in some cell of the grid.", "quantifier": "every grid and every target in one of its cells", "why_tests_cant": "it is a statement about every such input; tests sample a few", "anchors": ["xoa/interp.py:grid2relloc"]}
{"id": "C73", "title": "Cell edges of integer coordinates", "statement": "get_edges_1d gives the same edges for centers stored as integers as for the same centers stored as floating point numbers.", "quantifier": "every array of integer centers", "why_tests_cant": "it is a statement about every such input; tests sample a few", "anchors": ["xoa/grid.py:get_edges_1d"]}
{"id": "C74", "title": "Borders of the 2-D cell edges", "statement": "get_edges_2d depends only on its input and reproduces the analytic edges of any regular affine grid, including at the borders and corners.", "quantifier": "every ny x nx grid with ny, nx >= 2", "why_tests_cant": "it is a statement about every such input; tests sample a few", "anchors": ["xoa/grid.py:get_edges_2d"]}
{"id": "C75", "title": "Explicit dimension and coordinate names", "statement": "regrid1d accepts the working dimension and the name of the input coordinate given by the caller when they exist.", "quantifier": "every call with explicit names", "why_tests_cant": "it is a statement about every such input; tests sample a few", "anchors": ["xoa/coords.py:DimFlusher1D"]}
{"id": "C76", "title": "Options of regrid1d", "statement": "regrid1d uses the conservation, bias and tension options and the extrapolation mode it was given.", "quantifier": "every value of the options, every data", "why_tests_cant": "it is a statement about every such input; tests sample a few", "anchors": ["xoa/regrid.py:regrid1d"]}
{"id": "C77", "title": "Convolution is missing only where nothing is available", "statement": "With a nonnegative kernel, convolve gives a missing value exactly where no non-missing datum is reached by the kernel, whatever the weights.", "quantifier": "every data, mask and nonnegative kernel", "why_tests_cant": "it is a statement about every such input; tests sample a few", "anchors": ["xoa/filter.py:_convolve_"]}
{"id": "C78", "title": "Convolution is local", "statement": "The result of convolve at a point does not change when data that the kernel does not reach from it change or become missing.", "quantifier": "every data, kernel and position", "why_tests_cant": "it is a statement about every such input; tests sample a few", "anchors": ["xoa/filter.py:_convolve_"]}
{"id": "C79", "title": "Dimensions of the s coordinate formula", "statement": "ocean_s_coordinate accepts a bathymetry that has dimensions that the vertical coordinate and the stretching do not have.", "quantifier": "every combination of dimensions of the terms", "why_tests_cant": "it is a statement about every such input; tests sample a few", "anchors": ["xoa/sigma.py:ocean_s_coordinate"]}
{"id": "C80", "title": "s levels never cross whatever the critical depth", "statement": "For ocean_s_coordinate and ocean_s_coordinate_g1, depth increases with the level also where the bathymetry is less than the critical depth hc.", "quantifier": "every bathymetry, critical depth and increasing stretching", "why_tests_cant": "it is a statement about every such input; tests sample a few", "anchors": ["xoa/sigma.py:ocean_s_coordinate", "xoa/sigma.py:ocean_s_coordinate_g1"]}
{"id": "C81", "title": "Stretching types and no stretching", "statement": "get_cs follows the stretching type it is given and returns s itself in the limit case theta_s = 0.", "quantifier": "every stretching type, every theta_s >= 0", "why_tests_cant": "it is a statement about every such input; tests sample a few", "anchors": ["xoa/sigma.py:get_cs"]}
{"id": "C82", "title": "A cache never gives stale or foreign constants", "statement": "A cache dictionary filled by one call of a sigma formula can be given to a call with another bathymetry or other parameters, or of another formula, without changing the result of that call.", "quantifier": "every two calls sharing a cache", "why_tests_cant": "it is a statement about every such input; tests sample a few", "anchors": ["xoa/sigma.py:ocean_s_coordinate", "xoa/sigma.py:ocean_s_coordinate_g1"]}
{"id": "C83", "title": "Blanks around formula terms", "statement": "decode_formula_terms ignores blanks at the beginning and at the end of the attribute.", "quantifier": "every attribute with leading or trailing blanks", "why_tests_cant": "it is a statement about every such input; tests sample a few", "anchors": ["xoa/sigma.py:decode_formula_terms"]}
{"id": "C84", "title": "Contexts after a failed first load", "statement": "Leaving a set_options context restores the options in force on entry also when these are the empty options left by a first load_options that failed.", "quantifier": "every program", "why_tests_cant": "it is a statement about every such input; tests sample a few", "anchors": ["xoa/__init__.py:set_options"]}
{"id": "C85", "title": "Setting an option leaves the others", "statement": "After set_options(section, opt=val) every other option keeps the value it had just before.", "quantifier": "every state of the options, section, option and value", "why_tests_cant": "it is a statement about every such input; tests sample a few", "anchors": ["xoa/__init__.py:set_options"]}
{"id": "C86", "title": "Unknown options are reported", "statement": "get_option raises a configuration error for an option that does not exist.", "quantifier": "every unknown option", "why_tests_cant": "it is a statement about every such input; tests sample a few", "anchors": ["xoa/__init__.py:get_option"]}
{"id": "C87", "title": "Valid locations are recognised", "statement": "A name ending with a separator and a valid location is parsed with that location, even if one valid location is a prefix of another, and a name that merely contains one is not.", "quantifier": "every list of valid locations and every name", "why_tests_cant": "it is a statement about every such input; tests sample a few", "anchors": ["xoa/cf.py:SGLocator.parse_attr"]}
{"id": "C88", "title": "Merging with location any", "statement": "Merging attributes with loc='any' keeps the location of the values and never writes the word any.", "quantifier": "every pair of values", "why_tests_cant": "it is a statement about every such input; tests sample a few", "anchors": ["xoa/cf.py:SGLocator.merge_attr"]}
{"id": "C89", "title": "Labels of a search without name", "statement": "Searching without a name gives each object found the name that it matches.", "quantifier": "every dataset and specifications", "why_tests_cant": "it is a statement about every such input; tests sample a few", "anchors": ["xoa/cf.py:_CFCatSpecs_.search"]}
{"id": "C90", "title": "Generated long names do not hide inherited ones", "statement": "A specification that has no long_name of its own has the long_name of its parent as first long_name.", "quantifier": "every specification and parent", "why_tests_cant": "it is a statement about every such input; tests sample a few", "anchors": ["xoa/cf.py:CFSpecs._process_entry_"]}
{"id": "C91", "title": "Known dimensions are repeatable", "statement": "Loading the default configuration several times in a session gives the same lists of known dimension names, and a (key, configuration) pair can be loaded twice.", "quantifier": "every number of loads", "why_tests_cant": "it is a statement about every such input; tests sample a few", "anchors": ["xoa/cf.py:CFSpecs._post_process_", "xoa/cf.py:CFSpecs._load_cfg_as_dict_"]}
{"id": "C92", "title": "Positions and locations of dimensions", "statement": "get_dims with allow_positional=True returns distinct dimensions of the right position for the types that are not found, never raises an IndexError, answers each repeated type, and with errors='ignore' never raises whatever the names of the dimensions.", "quantifier": "every array, types, positions", "why_tests_cant": "it is a statement about every such input; tests sample a few", "anchors": ["xoa/cf.py:CFCoordSpecs.get_dims", "xoa/cf.py:CFCoordSpecs.get_dim_type"]}
{"id": "C93", "title": "Edits of the user configuration are seen", "statement": "After the user edits the configuration file, a new session gets the new specifications whatever the cache mode.", "quantifier": "every history with edits of the user file", "why_tests_cant": "it is a statement about every such input; tests sample a few", "anchors": ["xoa/cf.py:get_cf_specs"]}
{"id": "C94", "title": "Merging is associative on any values and removes duplicates as asked", "statement": "dict_merge is associative also when a key has a dictionary in one input and another value in another, and uniquify gives lists without duplicates.", "quantifier": "every dictionaries", "why_tests_cant": "it is a statement about every such input; tests sample a few", "anchors": ["xoa/misc.py:dict_merge"]}
{"id": "C95", "title": "Merging lists does not modify the inputs", "statement": "dict_merge with mergelists=True leaves the dictionaries and the lists it was given unchanged.", "quantifier": "every dictionaries", "why_tests_cant": "it is a statement about every such input; tests sample a few", "anchors": ["xoa/misc.py:dict_merge"]}
{"id": "C96", "title": "Short names do not collide", "statement": "dict_filter with short names loses no keyword even if two keywords have the same short name.", "quantifier": "every keywords and filters", "why_tests_cant": "it is a statement about every such input; tests sample a few", "anchors": ["xoa/misc.py:dict_filter"]}
{"id": "C97", "title": "Membership in an enumeration", "statement": "`x in enumeration` is true exactly when the lookup of x succeeds, and never raises.", "quantifier": "every enumeration and every x", "why_tests_cant": "it is a statement about every such input; tests sample a few", "anchors": ["xoa/misc.py:IntEnumChoices"]}
{"id": "C98", "title": "Min/max validator, integer bounds and shapes", "statement": "The min/max validator returns an ordered pair, integer validators keep values within non-integer bounds, and a value of the asked shape is accepted.", "quantifier": "every value and bounds", "why_tests_cant": "it is a statement about every such input; tests sample a few", "anchors": ["xoa/cfgm.py:is_minmax", "xoa/cfgm.py:is_numerics"]}
{"id": "C99", "title": "Patching with strings and underscored sections", "statement": "ConfigManager.patch gives boolean options the value written in the patch, and patches sections whose names begin or end with an underscore.", "quantifier": "every patch", "why_tests_cant": "it is a statement about every such input; tests sample a few", "anchors": ["xoa/cfgm.py:ConfigManager.patch"]}
{"id": "C100", "title": "Formatting one array", "statement": "format_dataarray gives a copy of the array that has the CF name it matches (or that is given) at the requested location; existing attributes are kept (standard_name and long_name in their standard form at the location), missing ones take the first value of the specifications, with replace_attrs=True the specifications replace them; attributes given by the caller take the place of those of the specifications, and with attrs=False none is added; data, dimensions and coordinates are kept except that a dimension named after a 1D array follows its new name; an array that matches nothing is returned unchanged and an unknown name is refused.", "quantifier": "every locator, specifications, options and array", "why_tests_cant": "it must hold for every such input; tests sample a few names and attributes", "anchors": ["xoa/cf.py:_CFCatSpecs_.format_dataarray", "xoa/cf.py:SGLocator.format_dataarray"]}
{"id": "C101", "title": "Formatting an array and its coordinates", "statement": "format_data_var gives the variable and each coordinate that matches a CF coordinate their CF names at the requested location and their missing attributes, renames the dimensions with the coordinates, and changes no data.", "quantifier": "every locator, specifications, options and array with coordinates", "why_tests_cant": "it must hold for every such input; tests sample a few names and attributes", "anchors": ["xoa/cf.py:CFSpecs.format_data_var", "xoa/cf.py:CFSpecs.format_coord"]}
{"id": "C102", "title": "Renaming leaves attributes unchanged", "statement": "rename_dataarray renames the array to its CF name and leaves its attributes unchanged.", "quantifier": "every locator, specifications, options and array", "why_tests_cant": "it must hold for every such input; tests sample a few names and attributes", "anchors": ["xoa/cf.py:_CFCatSpecs_.rename_dataarray"]}
{"id": "C103", "title": "Filling the attributes of a dataset", "statement": "fill_attrs of a dataset changes no name, dimension or data, gives each matching variable and coordinate its missing attributes, and leaves the others alone.", "quantifier": "every locator, specifications and dataset", "why_tests_cant": "it must hold for every such input; tests sample a few names and attributes", "anchors": ["xoa/cf.py:CFSpecs.fill_attrs"]}
{"id": "C104", "title": "Attributes of a CF name", "statement": "get_attrs gives, for each attribute of the specifications of a name, its first value (all values of standard_name and long_name with multi=True) formatted at the location; extra attributes take precedence; nothing else is given.", "quantifier": "every specifications, location and extra attributes", "why_tests_cant": "it must hold for every such input; tests sample a few names and attributes", "anchors": ["xoa/cf.py:_CFCatSpecs_.get_attrs"]}
{"id": "C105", "title": "Formatting a dataset", "statement": "format_dataset applies one renaming to variables, coordinates and dimensions alike, changes no data, gives matching variables and coordinates their CF names at the requested location and their missing attributes, and leaves variables that match nothing as they are.", "quantifier": "every locator, specifications and dataset", "why_tests_cant": "it must hold for every such input; tests sample a few names and attributes", "anchors": ["xoa/cf.py:CFSpecs.format_dataset"]}
{"id": "C106", "title": "Formatting invents no location", "statement": "When the location is kept, an array whose name carries no location is given the CF name without location.", "quantifier": "every locator, specifications and array", "why_tests_cant": "it must hold for every such input; tests sample a few names and attributes", "anchors": ["xoa/cf.py:_CFCatSpecs_.format_dataarray", "xoa/cf.py:SGLocator.merge_attr"]}
{"id": "C107", "title": "Formatting twice", "statement": "Formatting again an array with the same CF name and options changes neither its name nor its attributes.", "quantifier": "every locator, specifications and array", "why_tests_cant": "it must hold for every such input; tests sample a few names and attributes", "anchors": ["xoa/cf.py:_CFCatSpecs_.format_dataarray"]}
{"id": "C108", "title": "Unknown coordinates survive formatting", "statement": "Formatting an array or a dataset leaves a coordinate that matches no CF coordinate as it is.", "quantifier": "every array and dataset", "why_tests_cant": "it must hold for every such input; tests sample a few names and attributes", "anchors": ["xoa/cf.py:CFSpecs.format_data_var", "xoa/cf.py:CFSpecs.format_dataset"]}
{"id": "C109", "title": "Any dataset can be formatted", "statement": "Formatting a dataset succeeds whatever its variables and coordinates.", "quantifier": "every dataset", "why_tests_cant": "it must hold for every such input; tests sample a few names and attributes", "anchors": ["xoa/cf.py:CFSpecs.format_dataset"]}
{"id": "C110", "title": "fill_attrs returns the filled array", "statement": "fill_attrs of an array returns the array with its missing attributes, and fill_attrs does not change existing attributes.", "quantifier": "every array and dataset", "why_tests_cant": "it must hold for every such input; tests sample a few names and attributes", "anchors": ["xoa/cf.py:CFSpecs.fill_attrs"]}
{"id": "C111", "title": "Selecting and excluding attributes", "statement": "get_attrs gives only the selected attributes, does not give the excluded ones, and does not modify the list it is given.", "quantifier": "every selection and exclusion", "why_tests_cant": "it must hold for every such input; tests sample a few names and attributes", "anchors": ["xoa/cf.py:_CFCatSpecs_.get_attrs"]}
{"id": "C112", "title": "Sigma functions are the formulas of the CF conventions", "statement": "At every level and for every parameters, atmosphere_sigma_coordinate, ocean_sigma_coordinate, ocean_s_coordinate and its generic forms 1 and 2 return the pressure or depth given by the formula of the CF conventions (appendix D), with the given stretching values or, when they are not given, the CF stretching function of theta_s and theta_b; when neither is available the generic forms raise XoaSigmaError and leave the cache untouched.", "quantifier": "all real parameters (non-zero denominators), all levels", "why_tests_cant": "identity between real functions of up to seven parameters", "anchors": ["xoa/sigma.py:atmosphere_sigma_coordinate", "xoa/sigma.py:ocean_sigma_coordinate", "xoa/sigma.py:get_cs", "xoa/sigma.py:ocean_s_coordinate", "xoa/sigma.py:ocean_s_coordinate_g1", "xoa/sigma.py:ocean_s_coordinate_g2"]}
{"id": "C113", "title": "Accessors are registered under the requested names", "statement": "After register_accessors(xoa, cf, sigma), each accessor whose argument is true is available on arrays and datasets under its default name, each one whose argument is a name is available under this name, and the other accessors are unchanged. (Refuted: a name given as `xoa` is ignored, and a name given as `cf` takes the place of the main accessor; proved for boolean `xoa` and `cf`.)", "quantifier": "all arguments, all previous registrations, all names", "why_tests_cant": "all combinations of arguments and histories of registrations", "anchors": ["xoa/__init__.py:register_accessors", "xoa/accessors.py:register_xoa_accessors", "xoa/accessors.py:register_cf_accessors", "xoa/accessors.py:register_sigma_accessor"]}
{"id": "C114", "title": "are_similar compares standard name, CF name, name and long name", "statement": "are_similar(da0, da1) is true exactly when the arrays share their standard name (ignoring the case), their CF name, their name or their long name, whatever their order. (Refuted when no accessor is registered under the name `cf`: AttributeError; proved whenever it answers.)", "quantifier": "all pairs of arrays, all specifications, all registrations", "why_tests_cant": "quantifies over all arrays and specifications", "anchors": ["xoa/cf.py:are_similar", "xoa/cf.py:_same_attr_"]}
{"id": "C115", "title": "search_similar finds the similar array of a dataset", "statement": "search_similar(dsa, da) returns a variable or coordinate of dsa that is similar to da, and None only when there is none. (Refuted: it always raises for a dataset, and for an array the answer does not depend on dsa.)", "quantifier": "all datasets and arrays", "why_tests_cant": "quantifies over all datasets and arrays", "anchors": ["xoa/cf.py:search_similar"]}
{"id": "C116", "title": "Command line options set the configuration options of their name", "statement": "arg_parse declares one long option per configuration option (sections and key joined by dashes), returns a configuration exactly when these names are distinct and every option of the command line exists and has a valid value, and, unless cfgfilepatch is 'after', the returned configuration has for each given option the value of its last occurrence, whatever the configuration file, the defaults and `patch` are.", "quantifier": "all specifications, command lines, configuration files, values of patch, cfgfilepatch, exc and nested", "why_tests_cant": "quantifies over all trees of specifications and all command lines", "anchors": ["xoa/cfgm.py:ConfigManager.arg_parse", "xoa/cfgm.py:_walker_argcfg_setarg_", "xoa/cfgm.py:_walker_argcfg_setcfg_", "xoa/cfgm.py:_cfg2optname_", "xoa/cfgm.py:_opt2cfgname_"]}
{"id": "C117", "title": "An option that is not on the command line comes from the configuration file, else from the defaults", "statement": "With the default cfgfilepatch, an option that is not given on the command line has its value of the configuration file when the file has it, and its default otherwise. (Refuted for boolean options, whose value in the file is always ignored.)", "quantifier": "all specifications, command lines, configuration files", "why_tests_cant": "quantifies over all specifications, command lines and files", "anchors": ["xoa/cfgm.py:ConfigManager.arg_parse", "xoa/cfgm.py:ConfigManager.load"]}
{"id": "C118", "title": "cfgfilepatch='after' gives priority to the configuration file, without losing the command line", "statement": "With cfgfilepatch='after', the options of the configuration file have priority over the command line, and the options that the file does not have keep the value of the command line. (The second part is refuted: they get their default.)", "quantifier": "all specifications, command lines, configuration files", "why_tests_cant": "quantifies over all specifications, command lines and files", "anchors": ["xoa/cfgm.py:ConfigManager.arg_parse", "xoa/cfgm.py:ConfigManager.load"]}
{"id": "C119", "title": "The configuration given as `patch` is used by arg_parse", "statement": "An option that is neither on the command line nor in the configuration file has its value of the configuration given as `patch`. (Refuted whenever a configuration file is named, existing or not, which is the default: the option gets its default; proved when no file is used.)", "quantifier": "all specifications, command lines, configurations and files", "why_tests_cant": "quantifies over all specifications, command lines and configurations", "anchors": ["xoa/cfgm.py:ConfigManager.arg_parse", "xoa/cfgm.py:ConfigManager.patch", "xoa/cfgm.py:ConfigManager.load"]}
{"id": "C120", "title": "A pivot colormap adapter follows the last limits", "statement": "For CmapAdapter(cmap, 'piv<x>'), whatever the history of calls to set_vlim, get_dict returns the last limits and the colormap cropped with these limits around x, and the colormap unchanged when the limits are not both known; specifications of another form are refused.", "quantifier": "all colormaps, texts, numbers and histories of calls", "why_tests_cant": "all histories of calls", "anchors": ["xoa/color.py:CmapAdapter", "xoa/color.py:crop_cmap"]}
{"id": "C121", "title": "A cyclic colormap adapter uses the range 0..value, and specifications are optional", "statement": "CmapAdapter(cmap, 'cyc<x>') gives the colormap with the limits 0 and x whatever set_vlim receives, and CmapAdapter(cmap) works without specifications. (Refuted: the limits become 0 and 360 after any set_vlim, the colormap is None, and the adapter without specifications always raises AttributeError.)", "quantifier": "all colormaps, numbers and histories of calls", "why_tests_cant": "all histories of calls", "anchors": ["xoa/color.py:CmapAdapter"]}
{"id": "C122", "title": "A box of four numbers is read from any separated text", "statement": "is_bbox(text) gives the four numbers, in order, of any text of four numbers separated by a comma or by blanks, None for None or 'None', and refuses any other count of numbers with a validation error. (Refuted for a comma followed by blanks, for a list as config files give, which raises AttributeError, and for words that are not numbers, which raise ValueError.)", "quantifier": "all texts and readings of numbers", "why_tests_cant": "all texts", "anchors": ["xoa/cfgm.py:is_bbox"]}
{"id": "C123", "title": "An interval is read from any text min,max[,bounds]", "statement": "is_interval(text) gives min, max and the bounds, if any, of any text of two limits and an optional bounds specification, surrounded by any brackets, each limit being evaluated or kept as a text; any other number of parts is refused. (Refuted for the bounds: any text with a letter c or o is accepted and truncated, and the notation of half-open intervals is ignored.)", "quantifier": "all texts, lists of texts and evaluations", "why_tests_cant": "all texts", "anchors": ["xoa/cfgm.py:is_interval"]}
{"id": "C124", "title": "8-bit color components are scaled to 0..1", "statement": "A color whose components are in 0..256 is given as components in 0..1: unchanged when all of them are at most 1, divided by 256 otherwise, the transparency being kept; as256 forces or prevents the scaling. (Refuted for the largest 8-bit value: 255 does not give 1.)", "quantifier": "all components and transparencies", "why_tests_cant": "all components", "anchors": ["xoa/cfgm.py:is_color", "xoa/cfgm.py:_check256_"]}
{"id": "C125", "title": "Isotropic kernels depend only on the distance to the center", "statement": "generate_isotropic_kernel gives the fill value at a scaled distance above 1/2 of the center and elsewhere the linearly interpolated window value at that distance: the kernel is symmetric along every dimension, equal at equal distances and within the bounds of the window. (Refuted for shapes with a dimension of size 1: all values are NaN.)", "quantifier": "all shapes, windows, fill values and positions", "why_tests_cant": "all shapes and windows", "anchors": ["xoa/filter.py:generate_isotropic_kernel"]}
{"id": "C126", "title": "A window given as values is resampled linearly", "statement": "get_window_func(values)(size) gives the values linearly interpolated at equal distances: the same values for the same size, the same first and last values, within the bounds of the values, and symmetric for symmetric values. (Refuted for one point: the border value is used instead of the center.)", "quantifier": "all lists of values and sizes", "why_tests_cant": "all values and sizes", "anchors": ["xoa/filter.py:get_window_func"]}
{"id": "C127", "title": "Kernels isotropic along some dimensions", "statement": "generate_kernel(..., isotropic=dims) builds the isotropic kernel of the given sizes when all its dimensions are isotropic, refuses to mix sizes and lists, and combines the isotropic and the orthogonal parts otherwise. (Refuted: any combination of isotropic and other dimensions fails, and the isotropic kernel of a list does not have the values of this list along the axes.)", "quantifier": "all dictionaries of kernels, windows and dimensions", "why_tests_cant": "all dictionaries of kernels", "anchors": ["xoa/filter.py:generate_kernel", "xoa/filter.py:generate_isotropic_kernel"]}
{"id": "C128", "title": "Loading specifications does not depend on what was loaded before", "statement": "Loading a list of CF configurations gives exactly the variables and coordinates of these configurations, the lists of the first one coming first, and gives the same specifications whatever has been loaded before in the session. (Refuted for the last part: the lists of the configurations kept in memory are extended in place, so that the names of a user file appear in the specifications made later from the default file alone, and loading the same files again gives longer lists; lists are never shortened nor reordered.)", "quantifier": "all sessions, configurations and lists of configurations", "why_tests_cant": "all histories of loads in a session", "anchors": ["xoa/cf.py:CFSpecs.load_cfg", "xoa/cf.py:CFSpecs._load_cfg_as_dict_", "xoa/cf.py:CFSpecs._post_process_", "xoa/misc.py:dict_merge"]}
{"id": "C129", "title": "set_specs updates one item and keeps the others", "statement": "set_specs(category, name, **specs) puts the given lists first in the specifications of this item and keeps the other items of the object. (Refuted: only the items of the files loaded by the object are kept; those coming from the configuration given at creation, or from a previous set_specs, are lost, and all of them for a copy.)", "quantifier": "all sessions, objects, items and configurations", "why_tests_cant": "all histories of loads and updates", "anchors": ["xoa/cf.py:CFSpecs.set_specs", "xoa/cf.py:CFSpecs.load_cfg", "xoa/cf.py:_CFCatSpecs_.set_specs"]}
{"id": "C130", "title": "A copy of specifications has the same specifications", "statement": "specs.copy() has the same variables and coordinates with the same specifications, in the same order, and the same known dimensions, and leaves the original unchanged. (Refuted for the known dimensions: the names of the coordinates of an axis are added once more at each copy.)", "quantifier": "all well-formed configurations without inheritance cycle", "why_tests_cant": "all configurations and inheritance graphs", "anchors": ["xoa/cf.py:CFSpecs.copy", "xoa/cf.py:CFSpecs._post_process_"]}
{"id": "C131", "title": "Specifications by name", "statement": "specs[name] gives the category, else the data variable, else the coordinate, else the section of this name, and is a KeyError exactly when there is none; specs.coords.get_specs(name, errors) gives the specifications of the names that are in the category, and raises, warns or is silent for the others; and a name is `in` the specifications when it can be got from them. (Refuted for the last part: only the names of the two categories are `in` the specifications.)", "quantifier": "all specifications and names", "why_tests_cant": "all specifications and names", "anchors": ["xoa/cf.py:CFSpecs.__getitem__", "xoa/cf.py:CFSpecs.__contains__", "xoa/cf.py:_CFCatSpecs_.get_specs"]}
{"id": "C132", "title": "Searching for several items", "statement": "CFSpecs.search(dsa, name, single=False) gives the items found in the first category, followed by those of the second one that are not already there, and an empty list when there is none. (Refuted: it is a TypeError for any name that is unknown in one of the two categories, and a ValueError when arrays are asked for and both categories have some.)", "quantifier": "all datasets, specifications and names", "why_tests_cant": "all datasets, specifications and names", "anchors": ["xoa/cf.py:CFSpecs.search", "xoa/cf.py:_CFCatSpecs_.search"]}
{"id": "C133", "title": "Searching in given categories", "statement": "CFSpecs.search(dsa, name, categories=...) searches only in the given category or categories, in this order. (Refuted for lists: an explicit list of categories is replaced by both categories.)", "quantifier": "all datasets, specifications, names and lists of categories", "why_tests_cant": "all datasets and lists of categories", "anchors": ["xoa/cf.py:CFSpecs.search"]}
{"id": "C134", "title": "Resetting a configuration file with a backup never loses it", "statement": "Whenever ConfigManager.reset(cfgfile, backup=True) is interrupted, the previous contents are in the file or in its backup; at the end the file has the defaults and the backup the previous contents; no other file is touched at any time.", "quantifier": "all file systems, files, contents and crash points", "why_tests_cant": "all crash points, including partial writes", "anchors": ["xoa/cfgm.py:ConfigManager.reset"]}
{"id": "C135", "title": "Registering validation functions", "statement": "register_validation_functions(**functions) makes each function that of its type and of its list forms, leaves the other types unchanged, and every type has a plural and a list form. (Refuted: registering another function for a type leaves its list forms with the previous one; and each call adds list forms of the list forms, 2^n new names per type at the n-th call.)", "quantifier": "all registries, functions and histories of calls", "why_tests_cant": "all histories of registrations", "anchors": ["xoa/cfgm.py:register_validation_functions", "xoa/cfgm.py:_update_registry_"]}
{"id": "C136", "title": "Removing the default values of a configuration", "statement": "remove_defaults removes exactly the options that have their default value, and keeps the others and the sections. (Refuted for options that are not texts: the default is compared as the text of the specifications, so that numbers and booleans are always kept.)", "quantifier": "all configurations and specifications, of any depth", "why_tests_cant": "all nested configurations", "anchors": ["xoa/cfgm.py:remove_defaults", "xoa/cfgm.py:_walker_unchanged_options_"]}
{"id": "C137", "title": "Paths of sections", "statement": "get_sec_names gives the names of the sections from the top to a section, get_cfg_path joins them, with the entry if any, and two sections whose names are not empty and do not contain the separator have the same path only if they are the same.", "quantifier": "all sections, of any depth", "why_tests_cant": "all depths and names", "anchors": ["xoa/cfgm.py:get_sec_names", "xoa/cfgm.py:get_cfg_path"]}
{"id": "C138", "title": "Extra arguments in specifications are ignored", "statement": "A validation function wrapped for a specification receives the named arguments that it accepts; the others are ignored. (Refuted for keyword-only arguments and **kwargs, which are dropped.)", "quantifier": "all functions and arguments", "why_tests_cant": "all signatures and calls", "anchors": ["xoa/cfgm.py:_valwrap_"]}
{"id": "C139", "title": "Attributes of the accessors", "statement": "Reading an attribute of an accessor that is a CF name gives the object found with this name: the data variables and then the coordinates for a dataset, the coordinates for an array and for `coords`, the data variables for `data_vars`; the attributes of a recognised array come first. The main accessor gives its sub-accessors `cf` and `decode_sigma`. (Refuted for the sub-accessors of the main accessor: they are always None.)", "quantifier": "all specifications, all arrays and datasets, all names", "why_tests_cant": "quantifies over all specifications, objects and names", "anchors": ["xoa/accessors.py:_CFAccessor_.get", "xoa/accessors.py:_CFAccessor_.__getattr__", "xoa/accessors.py:CFDataArrayAccessor.__getattr__", "xoa/accessors.py:XoaDatasetAccessor.cf", "xoa/accessors.py:XoaDatasetAccessor.decode_sigma", "xoa/accessors.py:XoaDataArrayAccessor.cf"]}
{"id": "C140", "title": "Specifications used by the accessors", "statement": "A search through an accessor uses the specifications last given to it with its set_cf_specs, else the current specifications; its sub-accessors `coords` and `data_vars` use those last given to them, else those of the accessor. (Refuted: an accessor keeps the specifications that were current at its first use, and a sub-accessor keeps those that the accessor had at its own first use.)", "quantifier": "all histories of changes of the current specifications, of accesses and of set_cf_specs on the accessor and its sub-accessors", "why_tests_cant": "all histories", "anchors": ["xoa/accessors.py:_CFAccessor_.__init__", "xoa/accessors.py:_CFAccessor_.set_cf_specs", "xoa/accessors.py:_CFAccessor_.coords", "xoa/accessors.py:_CFAccessor_.data_vars"]}
{"id": "C141", "title": "Attributes of an array through its accessor", "statement": "The attributes of an array read through its accessor are its own attributes, completed with those of its CF specifications. (Refuted for an array that is not recognised: none of its attributes is there; proved for recognised arrays, the location of the names being written in the standard way.)", "quantifier": "all arrays and specifications", "why_tests_cant": "quantifies over all attributes and specifications", "anchors": ["xoa/accessors.py:CFDataArrayAccessor.attrs", "xoa/cf.py:SGLocator.patch_attrs", "xoa/cf.py:_CFCatSpecs_.get_attrs"]}
{"id": "C142", "title": "Formatting arrays succeeds", "statement": "Formatting an array that matches a CF name, at a location that is kept, removed or declared, succeeds whatever its name, dimensions and attributes (those that carry a location being texts), unless the new name of a coordinate is already taken; an undeclared location is refused. (Refuted when the locator declares a location with an upper case letter: arrays at this location cannot be formatted.)", "quantifier": "all locators, specifications, arrays and options", "why_tests_cant": "total correctness over all arrays, attributes and specifications", "anchors": ["xoa/cf.py:_CFCatSpecs_.format_dataarray", "xoa/cf.py:CFSpecs.format_data_var", "xoa/cf.py:SGLocator.format_dataarray", "xoa/cf.py:SGLocator.merge_attr", "xoa/cf.py:SGLocator.patch_attrs"]}
{"id": "C143", "title": "regrid1d end to end", "statement": "regrid1d(da, coord, method, ...) gives, in each row along the regridded dimension where the input and output coordinates increase: the data back at the output points that are input points (all interpolation methods, so regridding to the same coordinate changes nothing); the exact value of data that are affine in the coordinate, and values between two neighbouring data of the row (linear); a datum of the row at minimal distance (nearest); and a missing value at the output points out of the range of the input coordinate.", "quantifier": "all named arrays of any number of dimensions, coordinates that vary along any of them, methods, positions and values", "why_tests_cant": "Numbers, sizes and orders of dimensions, coordinates and values are unbounded.", "anchors": ["xoa/regrid.py:regrid1d", "xoa/coords.py:DimFlusher1D", "xoa/interp.py:linear1d", "xoa/interp.py:nearest1d", "xoa/interp.py:cubic1d", "xoa/interp.py:hermit1d"]}
{"id": "C144", "title": "Interpolation of gridded data to random positions returns values", "statement": "The linear interpolation of gridded data (5-D data on rectangular or curvilinear axes, depths and times) to a list of positions returns an array with one value per extra item and position: the linear interpolation of the data for a position in the grid, a missing value for a position outside.", "quantifier": "all grids, depths, times, data (with missing values) and lists of positions", "why_tests_cant": "The claim is about every position of every grid; a test runs a few positions on one grid.", "anchors": ["xoa/interp.py:linear4dto1dxx", "xoa/interp.py:grid2relloc"]}
{"id": "C145", "title": "The cache file of the CF specifications is used as its mode says", "statement": "get_cf_specs(cache=...) stores the specifications that it builds in the cache file in the modes \"write\" and \"rw\", uses an up-to-date file instead of building them in the modes \"read\" and \"rw\", removes the file in the mode \"clean\", and does not touch it in the modes \"ignore\" and \"read\". (Refuted for the use of the file in the mode \"rw\", the default one: it is never read.)", "quantifier": "all states of the memory and of the file, configurations and sequences of sessions", "why_tests_cant": "The claim is about every state of the file and of the session, and about what a later session does.", "anchors": ["xoa/cf.py:get_cf_specs", "xoa/cf.py:reset_cache"]}
{"id": "C146", "title": "Validation of dates, durations and ranges", "statement": "The validators of dates, durations and ranges of dates give None for None (as such or as a text), the date, the duration or the range for a value of the documented form, and a validation error for any other value. (Refuted: what pandas, numpy or float refuses raises their exceptions through the validation; the ranges of pandas and the durations of numpy are never validated.)", "quantifier": "all values, formats and behaviours of the date libraries", "why_tests_cant": "The set of texts and lists is infinite, and the claim on errors is about every text that the libraries refuse.", "anchors": ["xoa/cfgm.py:is_timestamp", "xoa/cfgm.py:is_datetime", "xoa/cfgm.py:is_datetime64", "xoa/cfgm.py:is_timedelta", "xoa/cfgm.py:is_timedelta64", "xoa/cfgm.py:is_daterange", "xoa/cfgm.py:is_daterange64", "xoa/cfgm.py:is_pydatetime"]}
{"id": "C147", "title": "Validation of dictionaries, expressions and paths", "statement": "The validator of dictionaries reads `name=value, ...`, `{...}` and `call(...)`, gives an empty dictionary for a blank text and None for None, gives the same for a list as for its items joined by commas, fails only with a validation error and evaluates no other text; the validator of expressions gives their value, or the text itself when they cannot be evaluated (a validation error if asked); the validator of paths gives the path, expanded if asked, or the default one when it is empty.", "quantifier": "all texts, lists of texts and outcomes of the evaluation", "why_tests_cant": "The set of texts is infinite, and the evaluation of a text may do anything.", "anchors": ["xoa/cfgm.py:is_dict", "xoa/cfgm.py:is_eval", "xoa/cfgm.py:is_path"]}
{"id": "C148", "title": "Help of the command line options", "statement": "The help of a command line option made from a configuration is the inline comment of the option, or the comments above it when it has no inline comment, each ending with a dot, followed by its default value, and it is \"Undocumented\" only when there is no comment; it is printed as it is whatever it contains. (Refuted: a comment with a percent sign cannot be printed, an empty inline comment hides the comments above, and the parenthesis at the end of a default value is lost.)", "quantifier": "all comments, default values and modes", "why_tests_cant": "Comments and default values are arbitrary texts, and the failures depend on their characters.", "anchors": ["xoa/cfgm.py:_shelp_", "xoa/cfgm.py:_sdefault_", "xoa/cfgm.py:_walker_argcfg_setarg_"]}
{"id": "C149", "title": "Conversion of the help to rst", "statement": "opt2rst converts any help text, giving each option a directive followed by its description, and losing no other text; arg_long_help gives the help of the options made from the configuration. (Refuted: with the default arguments opt2rst fails on any text that has a section header, thus on any help of argparse, and arg_long_help always fails.)", "quantifier": "all help texts, formats and program names", "why_tests_cant": "Help texts are arbitrary.", "anchors": ["xoa/cfgm.py:opt2rst", "xoa/cfgm.py:ConfigManager.arg_long_help"]}
{"id": "C150", "title": "Declaration of the command line options", "statement": "arg_parse declares all the extra options, names the groups of options after the comments of the specifications, and checks the options given on the command line with the validation functions given to the manager. (Refuted: only the last extra option is declared, specifications whose only initial comment is the coding line cannot be used, and the options out of the sections are not checked with the given functions.)", "quantifier": "all extra options, comments of the specifications and validation functions", "why_tests_cant": "The claim is about every list of options and every specification file.", "anchors": ["xoa/cfgm.py:ConfigManager.arg_parse", "xoa/cfgm.py:_walker_argcfg_setarg_", "xoa/cfgm.py:get_validator"]}
{"id": "C151", "title": "Documentation of a configuration in rst", "statement": "cfg2rst writes one directive for each option and each section of the configuration, at any depth, under names that identify them, indented by their depth, with their items and their comments as descriptions. (Refuted for the capitals of the comments, that are lost.)", "quantifier": "all configurations and comments", "why_tests_cant": "Configurations have any depth and any number of options.", "anchors": ["xoa/cfgm.py:cfg2rst", "xoa/cfgm.py:_walker_cfg2rst_", "xoa/cfgm.py:get_sec_names", "xoa/cfgm.py:_redent"]}
{"id": "C152", "title": "Data samples", "statement": "get_data_sample() gives the names of the files of the directory of samples (none if it does not exist); get_data_sample(name) and open_data_sample(name) work exactly for these names, with the path of that file in that directory, distinct names giving distinct paths, and refuse any other argument with a XoaError; the text printed by show_data_samples tells the names.", "quantifier": "every content of the directory of samples and every argument", "why_tests_cant": "ranges over every content of the directory and every name", "anchors": ["xoa/__init__.py:get_data_sample", "xoa/__init__.py:open_data_sample", "xoa/__init__.py:show_data_samples"]}
{"id": "C153", "title": "Command line", "statement": "The command xoa either prints the information that is asked for (info all being what versions, paths and options print separately) or is refused with the usage.", "quantifier": "every list of words given on the command line (words that begin with a dash excepted)", "why_tests_cant": "ranges over every list of words", "anchors": ["xoa/cli.py:get_parser", "xoa/cli.py:main", "xoa/cli.py:main_info", "xoa/__init__.py:show_info"]}
{"id": "C154", "title": "Versions and paths", "statement": "show_versions has a line for each known package, with the version that is installed or the mention that it is not; show_paths marks exactly the user files that are not on the disk, explains the mark exactly when it is used and lists the samples.", "quantifier": "every set of installed packages, every state of the disk and every set of files", "why_tests_cant": "ranges over every state of the machine", "anchors": ["xoa/__init__.py:show_versions", "xoa/__init__.py:show_paths"]}
{"id": "C155", "title": "Printed options", "statement": "What show_options prints is the text of the current options: stored in a file it gives the same options again.", "quantifier": "every value of the options", "why_tests_cant": "ranges over every value of the options", "anchors": ["xoa/__init__.py:show_options"]}
{"id": "C156", "title": "Choices: refusals and documentation", "statement": "A value that is not one of the declared choices is refused with a XoaError; the documentation made from choices names the parameter, gives all the accepted values and the text of each of them, and replaces the name of the parameter in the documentation of a function without changing the rest.", "quantifier": "every declaration of choices, every value and every documentation", "why_tests_cant": "ranges over every declaration, value and text", "anchors": ["xoa/misc.py:Choices.__init__", "xoa/misc.py:Choices.__getitem__", "xoa/misc.py:Choices.__str__", "xoa/misc.py:Choices.to_docstring", "xoa/misc.py:Choices.format_function_docstring"]}
{"id": "C157", "title": "Text of an enumeration", "statement": "The text and the rst of an enumeration give each number once with all its names, and these names are exactly those accepted for this number; with links, each alternative links to the first declared name of the number.", "quantifier": "every enumeration", "why_tests_cant": "ranges over every enumeration, whatever its size and aliases", "anchors": ["xoa/misc.py:XEnumMeta._get_groups_", "xoa/misc.py:XEnumMeta._get_choices_", "xoa/misc.py:XEnumMeta.__str__", "xoa/misc.py:XEnumMeta.get_rst"]}
{"id": "C158", "title": "Interpolation does not depend on the units of the coordinate", "statement": "Expressing the input and the output coordinates in other units (any positive factor and any origin) does not change the result of the 1-D interpolation routines, of cell averages and of regrid1d, missing values and exceptions included.", "quantifier": "every data, coordinates in any order with missing values, change of units, dimensions, interpolation method and extrapolation", "why_tests_cant": "ranges over every array, coordinate and pair of factor and origin", "anchors": ["xoa/interp.py:linear1d", "xoa/interp.py:nearest1d", "xoa/interp.py:cubic1d", "xoa/interp.py:hermit1d", "xoa/interp.py:cellave1d", "xoa/regrid.py:regrid1d"]}
{"id": "C159", "title": "Interpolation is linear in the data", "statement": "Interpolating a combination a A + b B gives the combination of the interpolated A and B, and interpolating data in other units (any factor and any origin) gives the result in these units, missing values included, with the 1-D interpolation routines, their extrapolation, cell averages (combination) and regrid1d.", "quantifier": "every data, coordinates in any order with missing values, coefficients, dimensions, interpolation method and extrapolation", "why_tests_cant": "ranges over every pair of arrays, coordinate and coefficient", "anchors": ["xoa/interp.py:linear1d", "xoa/interp.py:nearest1d", "xoa/interp.py:cubic1d", "xoa/interp.py:hermit1d", "xoa/interp.py:extrap1d", "xoa/interp.py:cellave1d", "xoa/regrid.py:regrid1d"]}
{"id": "C160", "title": "Filters and units", "statement": "With nonnegative weights, the normalised filter of data in other units (any factor and any origin) is the filtered data in these units, with the same missing values, and the same holds for mask erosion, which fills the same points after the same number of turns; the normalised filter does not depend on the scale of the kernel; any filter commutes with a multiplication of the data.", "quantifier": "every data with missing values, number of dimensions, kernel, change of units and scale", "why_tests_cant": "ranges over every array, kernel and pair of factor and origin", "anchors": ["xoa/filter.py:_convolve_", "xoa/filter.py:convolve", "xoa/filter.py:erode_mask"]}
{"id": "C161", "title": "Loading a configuration", "statement": "ConfigManager.load gives to every option of the specifications the check of the value given by keywords, else by the patch, else by the file, and its default when none gives one; it raises a validation error exactly when a value is refused or a value without default is missing (mode raise), only reports or fixes errors in the modes report and fix; options that the specifications do not know keep their values; without validation the values are those given; loading the result again changes nothing; load(None) reads config.cfg.", "quantifier": "every specification tree, file contents, patch, keywords, validators and modes", "why_tests_cant": "ranges over every tree of specifications and every combination of file, patch and keywords", "anchors": ["xoa/cfgm.py:ConfigManager.load"]}
{"id": "C162", "title": "A patch is not modified", "statement": "The object given as a patch to ConfigManager.patch and ConfigManager.load is the same after the call.", "quantifier": "every configuration, patch (dictionary or ConfigObj) and keywords", "why_tests_cant": "ranges over every pair of configurations", "anchors": ["xoa/cfgm.py:ConfigManager.patch", "xoa/cfgm.py:ConfigManager.load", "xoa/cfgm.py:_walker_patch_"]}
{"id": "C163", "title": "arg_patch and cfgargparse", "statement": "With arg_patch and cfgargparse, an option given on the command line has its value of the command line; another one has its value in the configuration file of the command line, else its default.", "quantifier": "every specification tree, configuration file and command line", "why_tests_cant": "ranges over every specification, file and command line", "anchors": ["xoa/cfgm.py:ConfigManager.arg_patch", "xoa/cfgm.py:cfgargparse"]}
{"id": "C164", "title": "Specifications of a ConfigManager", "statement": "A ConfigManager has the options of the specifications given that its filter keeps, and no others; with boolean_false, boolean options without default get the default False, with the same parameters, and all other specifications are unchanged; doing it twice changes nothing more.", "quantifier": "every specification tree, filter and specification text", "why_tests_cant": "ranges over every specification text and tree", "anchors": ["xoa/cfgm.py:ConfigManager.__init__", "xoa/cfgm.py:_walker_set_boolean_false_by_default_"]}
{"id": "C165", "title": "Specifications given to ConfigManager are not modified", "statement": "The specifications given to create a ConfigManager are the same after its creation.", "quantifier": "every specification tree (file or ConfigObj), filter and boolean_false", "why_tests_cant": "ranges over every specification tree", "anchors": ["xoa/cfgm.py:ConfigManager.__init__"]}
{"id": "C166", "title": "Horizontal dimensions of erode_mask", "statement": "erode_mask works along the two horizontal dimensions of the data: those given by xdim and ydim, else the first dimensions of type x and y, else (no dimension of known type) the last one for x and the one before for y; these are two different dimensions; a plain mask array must be two-dimensional and is read with the dimensions (y, x).", "quantifier": "every data array, dimension names, naming specifications, mask and number of turns", "why_tests_cant": "ranges over every array, every set of dimension names and every CF specification of dimension types", "anchors": ["xoa/filter.py:erode_mask", "xoa/coords.py:get_dims", "xoa/cf.py:CFCoordSpecs.search_dim"]}
{"id": "C167", "title": "Property dim of the accessors", "statement": "The property dim of a data array accessor never raises; it is None or a dimension of the array; for an array with a single dimension it is this dimension.", "quantifier": "every data array and CF specifications", "why_tests_cant": "ranges over every array, dimension name and CF specification", "anchors": ["xoa/accessors.py:_CFAccessor_", "xoa/cf.py:CFCoordSpecs.search_dim"]}
{"id": "C168", "title": "Loading with __many__ specifications", "statement": "With specifications that have __many__ sections and options (as those of the CF configuration), load checks every option given by the specification of its own name, else by the one of __many__; options that are not given get their defaults in all the sections with a name of their own and in all the sections for __many__ that exist, and nowhere else; a value refused, a missing value without default and a section in place of an option are errors; options without any specification keep their values.", "quantifier": "every specification tree with any number of nested __many__, every file, patch and keywords", "why_tests_cant": "ranges over every tree of specifications and of values", "anchors": ["xoa/cfgm.py:ConfigManager.load", "xoa/cf.ini"]}
{"id": "C169", "title": "Interpolation to random locations", "statement": "grid2loc(da, loc) gives the values of a gridded array at locations given as 1D coordinates, with compat deciding what happens when a coordinate of the locations is missing in the grid.", "quantifier": "every grid, every set of locations, every CF specifications and compatibility mode", "why_tests_cant": "ranges over every pair of objects and set of specifications", "anchors": ["xoa/regrid.py:grid2loc", "xoa/coords.py:get_time", "xoa/coords.py:get_vertical"]}
{"id": "C170", "title": "Options of type cmap", "statement": "An option declared with the type cmap is validated to an adapter of the colormap named, to an adapter of a custom colormap for a list of colors, or to None for the text None; an unknown colormap is refused.", "quantifier": "every value of the option and every set of existing colormaps", "why_tests_cant": "ranges over all values and colormap registries", "anchors": ["xoa/cfgm.py:is_cmap", "xoa/color.py:CmapAdapter"]}
{"id": "C171", "title": "auto_format of a dataset and of its variables", "statement": "auto_format, also as the call of the xarray accessors, formats a variable and its coordinates in the same way alone and in its dataset: same names, dimensions, attributes and data, with the same loc and standardize arguments.", "quantifier": "every dataset, variable, CF specifications, location and standardize mode", "why_tests_cant": "ranges over every dataset and set of specifications", "anchors": ["xoa/cf.py:CFSpecs.auto_format", "xoa/cf.py:CFSpecs.format_dataset", "xoa/cf.py:CFSpecs.format_data_var", "xoa/accessors.py:_CFAccessor_.auto_format"]}
{"id": "C172", "title": "Built-in data variables are recognised from their names", "statement": "With the specifications that come with xoa, an array without standard_name whose name is the name or an alias of a known data variable, in any case and with or without a location (temp, TEMP, temp_t), is recognised as this variable, whatever its other attributes are.", "quantifier": "every known variable, alias, location and array", "why_tests_cant": "ranges over all arrays, locations and cases, for every one of the 142 known variables", "anchors": ["xoa/cf.cfg", "xoa/cf.ini", "xoa/cf.py:_CFCatSpecs_.match", "xoa/cf.py:_CFCatSpecs_._get_ordered_match_specs_", "xoa/cf.py:SGLocator.match_attr"]}
{"id": "C173", "title": "Built-in data variables are recognised from their standard names", "statement": "With the specifications that come with xoa, an array whose standard_name is one of those of a known data variable, in any case and with or without a location, is recognised as this variable if its name does not tell otherwise.", "quantifier": "every known variable, standard name, location and array", "why_tests_cant": "ranges over all arrays, locations and cases, for every one of the 142 known variables", "anchors": ["xoa/cf.cfg", "xoa/cf.ini", "xoa/cf.py:_CFCatSpecs_.match"]}
{"id": "C174", "title": "Built-in coordinates are recognised", "statement": "With the specifications that come with xoa, an array whose name is a name or alias of a known coordinate, or whose standard_name is one of its standard names, in any case and with or without a location, is recognised as this coordinate, with or without the corresponding axis attribute.", "quantifier": "every known coordinate, alias, standard name, location and array", "why_tests_cant": "ranges over all arrays, locations, cases and axis and units attributes", "anchors": ["xoa/cf.cfg", "xoa/cf.ini", "xoa/cf.py:_CFCatSpecs_.match"]}
{"id": "C175", "title": "An array formatted with a built-in variable is recognised as it", "statement": "With the specifications that come with xoa, formatting an array without standard_name with a known data variable (format_data_var(da, name)) gives an array that is recognised as this variable.", "quantifier": "every known variable, array, location and formatting option", "why_tests_cant": "ranges over all arrays and options, for every one of the 142 known variables", "anchors": ["xoa/cf.cfg", "xoa/cf.py:CFSpecs.format_data_var", "xoa/cf.py:_CFCatSpecs_.format_dataarray", "xoa/cf.py:_CFCatSpecs_.match"]}
{"id": "C176", "title": "Types of the built-in dimension names", "statement": "With the specifications that come with xoa, a dimension whose name is one of those that they give for a type (x, y, z, t or f), in any case and with or without a location, has this type.", "quantifier": "every known dimension name, location and array", "why_tests_cant": "ranges over all locations, cases and arrays", "anchors": ["xoa/cf.cfg", "xoa/cf.py:CFCoordSpecs.get_dim_type", "xoa/cf.py:CFSpecs._post_process_"]}
{"id": "C177", "title": "Labels of the edges of cells", "statement": "get_edges_1d gives the same result whether the axis is given by the name of its dimension, by its position or by its position from the end; the result has the name of the array and of this dimension followed by name_suffix, the other dimensions unchanged, and the same values as for the plain array. get_edges_2d does so along both dimensions, for labelled and for plain arrays. An unknown dimension, an axis out of range and too small arrays are refused.", "quantifier": "every array, dimension names, name, axis and suffix", "why_tests_cant": "ranges over all numbers of dimensions, names and axes", "anchors": ["xoa/grid.py:get_edges_1d", "xoa/grid.py:get_edges_2d"]}
{"id": "C178", "title": "Coordinate getters with the built-in specifications", "statement": "With the CF specifications that xoa ships, get_lon, get_lat, get_time, get_depth, get_altitude and get_level of an array or a dataset give the coordinate that is told to be it - by its name or its standard name, in any case and with or without a location, by its units (longitude and latitude) or by its axis - when exactly one coordinate is; a coordinate that is told to be another one is never given; without any such coordinate they raise an error, or give nothing with errors=\"ignore\".", "quantifier": "every array or dataset, every coordinate of it with text attributes, every spelling and location", "why_tests_cant": "ranges over all data sets and all spellings of the attributes", "anchors": ["xoa/coords.py:get_lon", "xoa/coords.py:get_lat", "xoa/coords.py:get_depth", "xoa/coords.py:get_altitude", "xoa/coords.py:get_level", "xoa/coords.py:get_time", "xoa/cf.cfg"]}
{"id": "C179", "title": "Working dimensions and coordinate inferred by regrid1d", "statement": "regrid1d works along the dimensions and the input coordinate that are given; when they are not, the output dimension is the dimension of the output coordinate that has its type, or its only one, the input dimension is a dimension of the data of the same type, and the input coordinate is one of the data along this dimension. When nothing fits, an error asks for the working dimension. With the specifications that xoa ships, an array whose dimensions have known names, or coordinates whose axis is known, and that has one dimension of the type of the output coordinate, with one coordinate along it, is regridded along it without giving any name.", "quantifier": "every array and output coordinate, with any dimensions, coordinates and axes, and any names given or not", "why_tests_cant": "ranges over all arrays, coordinates and specifications", "anchors": ["xoa/coords.py:DimFlusher1D", "xoa/regrid.py:regrid1d", "xoa/cf.py:CFCoordSpecs.search_dim", "xoa/cf.py:CFCoordSpecs.search_from_dim"]}
{"id": "C180", "title": "Default options and reset_options", "statement": "An option that was not set and is not in the user file has its documented default value; reset_options() brings every option back to the value of the user file, or else to its default, whatever was loaded or set before, and never raises.", "quantifier": "every user file, every history of loads, settings and resets, every option", "why_tests_cant": "ranges over all histories and user files", "anchors": ["xoa/__init__.py:reset_options", "xoa/__init__.py:get_option", "xoa/__init__.py:load_options", "xoa/__init__.py:CONFIG_SPECS"]}
{"id": "C181", "title": "regrid1d(da, coord) from one end to the other", "statement": "With the built-in specifications, regrid1d(da, coord) with a 1-D output coordinate, data whose dimensions have known names, or coordinates whose axis is known, of which exactly one has the type of the output dimension, and whose coordinate of this name is 1-D and the only one along it, succeeds with no other argument: it infers the dimensions and the input coordinate, gives the dimensions of the data with this one replaced, and with the linear method each value is on the straight line through the two enclosing data of the same row, the datum itself at an input point, missing outside of the range; giving the inferred dimensions or the inferred coordinate name does not change the result.", "quantifier": "every such data array of any number of dimensions and sizes, every output coordinate, every position, all options", "why_tests_cant": "ranges over all arrays, names, sizes and values", "anchors": ["xoa/regrid.py:regrid1d", "xoa/coords.py:DimFlusher1D", "xoa/cf.py:search_dim", "xoa/interp.py:linear1d"]}
{"id": "C182", "title": "Built-in data variables are found in a dataset", "statement": "With the specifications that come with xoa, search(ds, x), search_data_var(ds, x) and get(ds, x) of a dataset, for any known data variable x, give the only data variable that is told to be x by its name, an alias or a standard name, in any case and with or without a location, without warning and whatever the other variables, coordinates and attributes are; when none is, they raise, warn or give nothing as asked by errors, and get gives nothing.", "quantifier": "every data variable of cf.cfg, every dataset whose standard names are texts, every mode of errors", "why_tests_cant": "ranges over all datasets and all built-in items", "anchors": ["xoa/cf.py:CFSpecs.search", "xoa/cf.py:CFSpecs.search_data_var", "xoa/cf.py:CFSpecs.get", "xoa/cf.cfg"]}
{"id": "C183", "title": "Integer data are interpolated as floats", "statement": "Interpolating integer data in one dimension (nearest, linear, cubic, hermitian), alone or through regrid1d, gives the values that the same data as floats give, and missing values where these are missing, in particular out of the range of the input coordinate.", "quantifier": "all integer data, float coordinates, shapes and output points", "why_tests_cant": "ranges over all data and coordinates; tests use float data", "anchors": ["xoa/interp.py:nearest1d", "xoa/interp.py:linear1d", "xoa/interp.py:cubic1d", "xoa/interp.py:hermit1d", "xoa/regrid.py:regrid1d"]}
{"id": "C184", "title": "1-D interpolation does not depend on the direction of the coordinates", "statement": "Interpolating in one dimension (nearest, linear, cubic, hermitian), alone or through regrid1d, does not depend on the direction in which the coordinates are given: reversing the data together with the input coordinate changes nothing, and reversing the output coordinate reverses the result.", "quantifier": "all data, monotonic input and output coordinates, shapes and output points", "why_tests_cant": "ranges over all data and coordinates; tests use increasing coordinates", "anchors": ["xoa/interp.py:nearest1d", "xoa/interp.py:linear1d", "xoa/interp.py:cubic1d", "xoa/interp.py:hermit1d", "xoa/regrid.py:regrid1d"]}
{"id": "C185", "title": "Location does not depend on the origin of the longitudes", "statement": "The closest grid point and the relative location of a target (closest2d, cell2relloc, grid2relloc, grid2rellocs) do not change when all the longitudes, those of the targets included, are shifted by the same amount, nor when whole turns are added to a longitude; the closest point does not change either when the sign of all the latitudes is changed.", "quantifier": "all grids (with missing points), targets, shifts and numbers of turns", "why_tests_cant": "ranges over all grids, targets and shifts; tests use one grid with its own longitudes", "anchors": ["xoa/interp.py:haversine", "xoa/interp.py:closest2d", "xoa/interp.py:cell2relloc", "xoa/interp.py:grid2relloc", "xoa/interp.py:grid2rellocs"]}
{"id": "C186", "title": "Larger data give larger results", "statement": "Linear and nearest interpolation along a dimension (also through regrid1d), cell averaging, extrapolation, filtering with nonnegative weights and mask erosion keep the order of data: if an array is nowhere larger than another one (missing at the same places), its result is nowhere larger than the result of the other one. In particular nonnegative data give nonnegative results. (The cubic and Hermite methods, that overshoot, are not concerned.)", "quantifier": "all pairs of ordered arrays, coordinates, methods, kernels with nonnegative weights, numbers of turns", "why_tests_cant": "compares two runs on all pairs of arrays; tests run a method on one array", "anchors": ["xoa/interp.py:linear1d", "xoa/interp.py:nearest1d", "xoa/interp.py:cellave1d", "xoa/interp.py:extrap1d", "xoa/regrid.py:regrid1d", "xoa/filter.py:convolve", "xoa/filter.py:erode_mask"]}
{"id": "C187", "title": "Each interpolated value depends on its own output coordinate only", "statement": "With increasing coordinates, the value that an interpolation along a dimension gives at an output coordinate does not depend on the other output coordinates: interpolating to a part of the output coordinate, or to a longer one, gives the same value at the same coordinate, missing values included. This holds for linear1d (with repeated and missing coordinates), nearest1d (missing coordinates at the ends only), cubic1d and hermit1d (no repeated output coordinate), and for regrid1d when each row is paired with its own coordinates.", "quantifier": "all data, input coordinates and pairs of output coordinates that share a value", "why_tests_cant": "compares two runs for all pairs of output coordinates; the scan keeps a running index from one output to the next, so a test on one coordinate says nothing of another one", "anchors": ["xoa/interp.py:linear1d", "xoa/interp.py:nearest1d", "xoa/interp.py:cubic1d", "xoa/interp.py:hermit1d", "xoa/regrid.py:regrid1d"]}
{"id": "C188", "title": "Filters do not depend on the order of the dimensions nor on the direction of the axes", "statement": "Storing data with their dimensions in another order, or reversed along some of them, does not change what the filters find: convolve (normalised or not) and erode_mask (any number of turns, or down to a target mask turned in the same way) of the turned data, with the kernel turned in the same way, give the turned result, missing values included, after the same number of turns. Kernels have named dimensions and an odd size along the reversed ones; moving means of odd size and the default kernel of erode_mask do not have to be turned.", "quantifier": "all data with named dimensions and missing values, all permutations of the dimensions, all sets of reversed dimensions, all kernels with odd sizes along them, all numbers of turns and target masks", "why_tests_cant": "a relation between two runs, for all orders of dimensions, sets of reversed axes, kernels, missing values and lengths of the erosion loop", "anchors": ["xoa/filter.py:convolve", "xoa/filter.py:_convolve_", "xoa/filter.py:generate_kernel", "xoa/filter.py:erode_mask", "xoa/coords.py:transpose"]}
{"id": "C189", "title": "Regridding commutes with selections along the other dimensions", "statement": "regrid1d of data that are selected, reversed, sorted or repeated along their other dimensions, or stored with their dimensions in another order, gives the regridded original data, selected in the same way, missing values included. This holds for each method, for 1-D input and output coordinates whatever the order of the dimensions, and for coordinates that vary along other dimensions, selected in the same way, when each row is paired with its own coordinates (C19).", "quantifier": "all data, coordinates, orders of the dimensions, index maps along the other dimensions and methods", "why_tests_cant": "a relation between two runs for all index maps, orders of dimensions and shapes; flattening to rows and back must agree for both layouts", "anchors": ["xoa/regrid.py:regrid1d", "xoa/coords.py:DimFlusher1D", "xoa/interp.py:linear1d", "xoa/interp.py:cellave1d"]}
{"id": "C190", "title": "Cell edges follow the units and the direction of the centers", "statement": "get_edges_1d of centers in other units (any factor, negative too, and any origin) gives the edges in these units, along any axis of an array of any dimension; the edges of a weighted sum of two lists of centers are the weighted sum of their edges; the edges of the reversed centers are the reversed edges, for integers too. The interior corners that get_edges_2d gives follow the units, the transposition and the reversals of the grid. The result never depends on the memory allocated for it. (The border corners are the subject of C74.)", "quantifier": "all centers, sizes, axes, units, weights and contents of the allocated memory", "why_tests_cant": "relations between two runs for all arrays, sizes and units, and for all contents of uninitialised memory", "anchors": ["xoa/grid.py:get_edges_1d", "xoa/grid.py:get_edges_2d"]}
{"id": "C191", "title": "Terrain following coordinates follow the units of length and the sea surface", "statement": "The depths given by the terrain following functions with all the lengths in other units are the depths in these units, missing results and errors included. For levels between the bottom and the surface, a rise of the sea surface raises each point by a fraction of it between 0 and 1, which does not depend on the sea surface: for ocean_sigma_coordinate and ocean_s_coordinate without condition, for the generic forms with a positive bathymetry, a critical depth that is not negative (and not larger than the bathymetry for the first form) and a stretching between -1 and 0; the stretching computed by the code meets this.", "quantifier": "all levels, sea surfaces, bathymetries, critical depths, stretching parameters and units", "why_tests_cant": "relations between two runs for all real parameters, including transcendental stretching functions", "anchors": ["xoa/sigma.py:atmosphere_sigma_coordinate", "xoa/sigma.py:ocean_sigma_coordinate", "xoa/sigma.py:ocean_s_coordinate", "xoa/sigma.py:ocean_s_coordinate_g1", "xoa/sigma.py:ocean_s_coordinate_g2", "xoa/sigma.py:get_cs"]}
{"id": "C192", "title": "Cell averages in one or several steps", "statement": "With increasing edges, averaging on fine cells and then averaging the result on coarse cells whose edges are edges of the fine cells is averaging on the coarse cells at once: for conservative averages of any data, on any cells, and for plain averages where valid data cover the fine cells, in which case plain and conservative averages are the same. The average over a cell does not depend on the other output cells. Averaging on the cells of the data gives back the data (missing values too for plain averages), and so does regrid1d by cell averaging to the coordinate of the data, when each row is paired with its own coordinate.", "quantifier": "all data, missing values, input cells, fine and coarse cells, rows", "why_tests_cant": "a relation between runs for all cells and data; the loops over cells stop and restart at positions that depend on the edges", "anchors": ["xoa/interp.py:cellave1d", "xoa/regrid.py:regrid1d", "xoa/grid.py:get_edges_1d"]}
{"id": "C193", "title": "Location does not depend on the way the grid is stored", "statement": "When a target has a single closest grid point, closest2d finds this same point whatever the way the points are stored: transposed grid (indices exchanged), rows or columns in the opposite order (index counted from the other end), points permuted or left out. In a strictly convex cell the relative location (p, q) becomes (q, p), (1-p, q) or (p, 1-q). The location in a grid is likewise exchanged by a transposition, and reversed when the columns or the rows are in the opposite order.", "quantifier": "all grids (missing points included), targets, ways of storing the points, convex cells", "why_tests_cant": "a relation between runs for all curvilinear grids and all targets; the visiting order, the cell that is examined and the root that is selected all depend on the storage order", "anchors": ["xoa/interp.py:closest2d", "xoa/interp.py:cell2relloc", "xoa/interp.py:grid2relloc"]}
{"id": "C194", "title": "Arguments and class of dict_merge", "statement": "dict_merge merges the dictionaries among its arguments, in order; empty ones and those that are not dictionaries are skipped. The result has the class that is given, or the first class that is not dict among the arguments that count, or dict. The first dictionaries have priority over the next ones also for the comments of configurations. (Refuted: without a given class, the class of the result is also taken from arguments that are not dictionaries, and the merge fails with TypeError; comments are those of the last argument; an empty ConfigObj cannot be made.)", "quantifier": "all lists of arguments of any classes, contents and options", "why_tests_cant": "any number and mixture of dictionary classes, other objects and empty values", "anchors": ["xoa/misc.py:dict_merge"]}
{"id": "C195", "title": "Name formats of SGLocator", "statement": "SGLocator accepts any name format that contains the root and the location, in any order, and rejects the others with XoaCFError. A name that is written with an accepted format that has a separator is parsed back to its root and its location in lower case; a name that does not contain the fixed parts of the format is left unchanged; a format without separator is warned about. (Refuted: fixed parts are used as regular expressions without being quoted, so that with {root}.{loc} temperature becomes temperatu.e; no format is ever warned about, as the test is on length 10 and {root}{loc} has 11 characters; without separator, the last letter of any name is taken for a location.)", "quantifier": "all name formats, valid locations, roots, locations and names", "why_tests_cant": "any name format, with any fixed parts and order of fields, and any name", "anchors": ["xoa/cf.py:SGLocator.__init__", "xoa/cf.py:_compile_sg_match_", "xoa/cf.py:SGLocator.parse_attr"]}
{"id": "C196", "title": "Explicit specifications in place of a name", "statement": "match and search accept a dictionary of explicit specifications in place of a CF name. match then answers whether the array has an attribute that matches one of the references of the dictionary, whatever the order of the keys and the specifications of the category; a known name is the same as the dictionary of its criteria; search finds the arrays that match. (Refuted: search raises TypeError with any dictionary that is not empty; an empty dictionary is the same as no name; a text in place of a list of references is read character by character.)", "quantifier": "all dictionaries, arrays, datasets, specifications and locations", "why_tests_cant": "any dictionary and any attributes", "anchors": ["xoa/cf.py:_CFCatSpecs_.match", "xoa/cf.py:_CFCatSpecs_.search", "xoa/cf.py:CFSpecs.match_coord", "xoa/cf.py:CFSpecs.match_data_var"]}
{"id": "C197", "title": "Sigma terms of all the sigma variables of a dataset", "statement": "get_sigma_terms gives the terms of every sigma variable of the dataset, under its staggered grid location, in the order of the dataset; with a given location, the terms of the sigma variable at this location alone, or None; the failure of one of them is that of the call, and a variable with inconsistent locations is one. (Refuted: of several sigma variables at the same location, or without location, only the last one is kept; inconsistent locations are not checked.)", "quantifier": "all datasets, sigma variables, formula terms and locations", "why_tests_cant": "any number of sigma variables, with any locations and formulas", "anchors": ["xoa/sigma.py:get_sigma_terms", "xoa/cf.py:SGLocator.parse_attr"]}
{"id": "C198", "title": "Heights that decode_cf_sigma adds to a dataset", "statement": "decode_cf_sigma adds one height coordinate per sigma variable, named depth or plev with its location, with the CF standard name, long name and units, holding the values of the formula at the same named positions, with the dimension order of the first data variable that has its dimensions; the variables and the other coordinates are unchanged. A dataset without sigma variable is returned unchanged, and so is one whose terms or formula fail when errors are ignored. rename=True gives CF names. (Refuted: an existing coordinate of that name is silently kept instead of the height; an error in the formula is raised even when errors are ignored; rename does nothing.)", "quantifier": "all datasets, sigma variables, locations, formulas and specifications", "why_tests_cant": "any number of variables and dimensions in any order", "anchors": ["xoa/sigma.py:decode_cf_sigma", "xoa/cf.py:SGLocator.format_dataarray", "xoa/coords.py:transpose"]}
{"id": "C199", "title": "Axis of a coordinate", "statement": "get_axis gives the axis attribute of an array, else the axis of the CF coordinate that it is recognised as, in upper case or in lower case, and None for an array that is not recognised. With the built-in specifications every recognised coordinate has an axis, that is the type of a dimension of its name. (Refuted: the grid indices x and y, although recognised and known as dimensions, have no axis.)", "quantifier": "all arrays, attributes, names, locations and cases", "why_tests_cant": "ranges over all arrays, names, locations and cases", "anchors": ["xoa/cf.py:CFCoordSpecs.get_axis", "xoa/cf.cfg", "xoa/cf.ini"]}
{"id": "C200", "title": "Access to the CF specifications of an item", "statement": "get_cf_specs(name) gives the specifications of the data variable of this name, else of the coordinate of this name, else None; with a category only this category counts; without name the category or all the specifications are given; specs[name] agrees with get_cf_specs(name); an unknown category raises KeyError.", "quantifier": "all specifications, names and categories", "why_tests_cant": "any specifications, with names that are both variables and coordinates", "anchors": ["xoa/cf.py:get_cf_specs", "xoa/cf.py:CFSpecs.__getitem__"]}
{"id": "C201", "title": "Filtering integer data", "statement": "The filters give for data of an integer type what they give for the same data as floats: convolve (normalised or not) and erode_mask. (Refuted: the weights of the kernel are truncated to integers, so that a mean gives zero everywhere, and the normalised convolution and erode_mask fail for all integer data.)", "quantifier": "all integer arrays, kernel specifications and numbers of turns", "why_tests_cant": "ranges over all data, kernels and numbers of turns", "anchors": ["xoa/filter.py:generate_kernel", "xoa/filter.py:_convolve_", "xoa/filter.py:convolve", "xoa/filter.py:erode_mask"]}
{"id": "C202", "title": "Kernel sizes given as integers and as floats", "statement": "A kernel size means the same whatever its type: as many points of the window as the whole part of the size, with a border of fill values for a size that is not a whole number, and a larger size never gives fewer points. (Refuted: a whole size that is not a python int, such as 3. or np.int64(3), gives two points less with a border, 0 and 1 are refused, and 4. gives fewer points than 3.5.)", "quantifier": "all sizes, windows and fill values", "why_tests_cant": "ranges over all sizes and all window functions", "anchors": ["xoa/filter.py:generate_orthogonal_kernel"]}
{"id": "C203", "title": "Interpolation through a finer coordinate", "statement": "With increasing coordinates and a finer coordinate that has all the points of the coordinate of the data, within its ends: interpolating linearly data without missing values to the finer coordinate and then to any coordinate is interpolating to it at once; and interpolating to the finer coordinate and back gives the data unchanged, with linear1d, cubic1d and hermit1d (any bias and tension), and with nearest1d even for missing data and a finer coordinate that goes beyond the ends.", "quantifier": "all data, coordinates, finer coordinates, output coordinates, biases and tensions", "why_tests_cant": "ranges over all triples of coordinates and all data", "anchors": ["xoa/interp.py:linear1d", "xoa/interp.py:nearest1d", "xoa/interp.py:cubic1d", "xoa/interp.py:hermit1d"]}
{"id": "C204", "title": "Rounding errors of the 1-D interpolations", "statement": "In floating-point arithmetic (float64, float32 and any arithmetic whose operations have a small relative error u, without overflow nor underflow), linear1d, cubic1d and hermit1d give a value at exactly the same points as in exact arithmetic, and it differs from the exact one by at most 6u times the larger of the two data that enclose the point (linear), 850u (cubic) and 1334u(1+|bias|)(1+|tension|) (Hermite) times the largest datum of the row; nearest1d gives exactly the same datum, except where the distances to the two ends of the cell are equal up to the rounding errors, where it may give the datum of the other end.", "quantifier": "all data, coordinates (sorted or not, with missing values or not), biases, tensions and roundings", "why_tests_cant": "ranges over all floating-point inputs; a loop that takes a wrong branch because of a rounding error would lose or displace values for a few inputs only", "anchors": ["xoa/interp.py:linear1d", "xoa/interp.py:nearest1d", "xoa/interp.py:cubic1d", "xoa/interp.py:hermit1d"]}
{"id": "C205", "title": "Exactness of linear interpolation with rounding", "statement": "In floating-point arithmetic too, linear1d gives the datum at a node of the coordinate, keeps a constant and gives no value outside the range of the data. (Refuted as it is: true up to 6u times the size of the data.)", "quantifier": "all data, coordinates and roundings", "why_tests_cant": "ranges over all floating-point inputs", "anchors": ["xoa/interp.py:linear1d"]}
{"id": "C206", "title": "Filters with an approximate convolution", "statement": "scipy.signal.convolve, which may go through Fourier transforms, gives the sums of products only up to an error, δ times the sum of the weights times the largest datum. With a kernel of nonnegative weights: convolve without normalize gives the weighted sum of the available data up to this error; with data that have missing values, a result is missing where the available weight is below a millionth of the sum of the weights up to a margin δ, in particular wherever the kernel reaches no valid datum; a normalised result is the weighted mean of the available data up to 2δ times the sum of the weights times the largest datum over the available weight less δ times the sum of the weights (2 million δ times the largest datum at worst if data are missing); erode_mask never changes a valid datum, whatever the error, and its values stay between the extrema of the data up to a margin that δ and the number of turns decide. (Refuted for complete data where the kernel reaches nothing: any value may be given there in place of a missing one.)", "quantifier": "all data, masks, kernels with nonnegative weights, errors and numbers of turns", "why_tests_cant": "ranges over all data and all the errors that the chosen method may make; the method itself depends on the sizes", "anchors": ["xoa/filter.py:_convolve_", "xoa/filter.py:convolve", "xoa/filter.py:erode_mask"]}
{"id": "C207", "title": "Filter of load", "statement": "ConfigManager.load(cfgfilter=...) restricts the loaded configuration, after the patches, to the options that the filter keeps: the filter of the manager with True, the given dictionary otherwise; the options that are kept have the value that they would have without the filter, the others are removed; False and an empty dictionary filter nothing; with the filter of the manager itself the options of its specifications are not changed. (Refuted: with validation, an option of the specifications that is filtered out is reset to its default instead of being removed; a manager created without filter ignores the dictionary given to load.)", "quantifier": "all specifications, files, patches, keywords, filters and option paths", "why_tests_cant": "ranges over all configuration trees and filters", "anchors": ["xoa/cfgm.py:ConfigManager.load", "xoa/cfgm.py:filter_section"]}
{"id": "C208", "title": "Edges in floating-point arithmetic", "statement": "With floating-point coordinates (any precision, rounding to nearest, ties to even, each operation rounded), get_edges_1d still gives n+1 values of the type that depend only on the coordinates; for coordinates in increasing (decreasing) order the edges are in increasing (decreasing) order and the cell i contains the coordinate i; an interior edge is the midpoint up to one rounding, the end edges are accurate up to one rounding plus one rounding of half of the width of their cell; and there is no error at all for coordinates that are multiples of the same power of two with two bits to spare.", "quantifier": "all lists of at least two coordinates of a floating-point type without overflow or underflow, all precisions, dimensions and axes", "why_tests_cant": "ranges over all floating-point numbers and precisions", "anchors": ["xoa/grid.py:get_edges_1d"]}
{"id": "C209", "title": "Cell averages in floating-point arithmetic", "statement": "With floating-point data and edges (each operation rounded with relative error u, n input cells, (n+4)u <= 1/8), cellave1d gives a missing value at exactly the same cells as in exact arithmetic; the mean of a cell is the overlap-weighted mean of the valid inputs up to 3(n+5)u times the largest absolute input; the conservative value is the sum of the valid inputs weighted by the covered fractions up to 2(n+4)u times the largest absolute input times the covered fraction; a cell of no width holds zero.", "quantifier": "all data of any size with any missing values, all ascending edges, extrapolation options, all roundings of relative error u, in particular float64 and float32", "why_tests_cant": "ranges over all floating-point inputs, sizes and roundings; the exact mean is not available to a test", "anchors": ["xoa/interp.py:cellave1d"]}
{"id": "C210", "title": "Terrain following coordinates in floating-point arithmetic", "statement": "With floating-point numbers (each operation rounded), the sigma and s formulas never compute a higher level below a lower one (column not negative; for the s coordinates a sea surface not below the reference level, stretching in order, hc between 0 and the bathymetry except for generic form 2); the surface level is exactly the sea surface height, the top of the atmosphere exactly ptop, and the bottom of generic form 2 exactly minus the bathymetry; and every level is that of the formula of the CF conventions up to a small number of roundings (4 to 9) of the depth of the column plus the sea surface height.", "quantifier": "all floating-point depths, sea surface heights, levels, stretching values in [-1, 0] and precisions, without overflow or underflow", "why_tests_cant": "ranges over all floating-point numbers and precisions", "anchors": ["xoa/sigma.py:atmosphere_sigma_coordinate", "xoa/sigma.py:ocean_sigma_coordinate", "xoa/sigma.py:ocean_s_coordinate", "xoa/sigma.py:ocean_s_coordinate_g1", "xoa/sigma.py:ocean_s_coordinate_g2"]}
{"id": "C211", "title": "Reduced helps of the command line", "statement": "With the parser of ConfigManager.arg_parse, the options -h and --short-help print a help that describes the help options, the extra option and the option of the configuration file with its default value, and none of the configuration options; the usage line of -h has all the options in the order of their declarations, that of --short-help only the positional arguments, the help options and the option of the configuration file, whatever its name, followed by other-options. (Refuted: nothing is described with Python 3.10 or later; the option of the configuration file is not on the usage line of --short-help when it is not named --cfgfile; the text {default} is shown in place of the default file.)", "quantifier": "all configurations (groups of options), extra options and names of the option of the configuration file", "why_tests_cant": "ranges over all configurations and parsers", "anchors": ["xoa/cfgm.py:print_short_help", "xoa/cfgm.py:ConfigManager.arg_parse", "xoa/cfgm.py:_AP_ShortHelpAction", "xoa/cfgm.py:_AP_VeryShortHelpAction"]}
{"id": "C212", "title": "Regridding in floating-point arithmetic, end to end", "statement": "With floating-point data and coordinates of any number of dimensions in any accepted layout (each operation rounded with relative error u), regrid1d gives an array with the same dimensions, sizes and missing points as in exact arithmetic. The values differ from the exact ones by at most 6 u M with the linear method, 850 u M with the cubic one and 1334 u M with the Hermite one, M bounding the data along the interpolated row; with the nearest method they are equal, except at points in the middle of a cell up to the rounding errors, where the datum at the other end may be taken; cell averages are within 3(n+5) u M of the exact averages on the cells computed by get_edges_1d. The calls that fail are the same, with the same exceptions.", "quantifier": "all data and coordinates of any dimensions, sizes and layouts, with any missing data; all methods and options; all roundings of relative error u <= 2^-20, in particular float64 and float32", "why_tests_cant": "ranges over all floating-point inputs, layouts and sizes; the exact result is not available to a test", "anchors": ["xoa/regrid.py:regrid1d", "xoa/coords.py:DimFlusher1D", "xoa/interp.py:linear1d", "xoa/interp.py:nearest1d", "xoa/interp.py:cubic1d", "xoa/interp.py:hermit1d", "xoa/interp.py:cellave1d", "xoa/grid.py:get_edges_1d"]}
{"id": "C213", "title": "Heights of whole arrays", "statement": "Given arrays on one grid (sigma, sea surface height, bathymetry, critical depth, stretching or stretching parameters, surface pressure, ...), each with its own dimensions in any order, the sigma functions and get_cs return an array that has exactly the dimensions of all the arguments, once each and with the sizes of the grid, and whose value at each point is the CF formula of the values of the arguments at this point, missing where one of them is missing. Arrays whose sizes disagree are refused, and the generic forms without stretching nor its parameters raise XoaSigmaError. (Refuted in two cases: ocean_s_coordinate_g1 and _g2 raise a ValueError when a stretching parameter is an array of several values, because of `None in (thetas, thetab)`; ocean_s_coordinate raises a ValueError when the bathymetry has dimensions that neither sigma nor the critical depth has, because of an in-place addition.)", "quantifier": "all numbers, names, orders and sizes of dimensions of each argument, all values, with missing ones anywhere", "why_tests_cant": "ranges over all combinations of dimensions of the arguments and all values", "anchors": ["xoa/sigma.py:atmosphere_sigma_coordinate", "xoa/sigma.py:ocean_sigma_coordinate", "xoa/sigma.py:get_cs", "xoa/sigma.py:ocean_s_coordinate", "xoa/sigma.py:ocean_s_coordinate_g1", "xoa/sigma.py:ocean_s_coordinate_g2"]}
{"id": "C214", "title": "decode_cf_sigma from one end to the other", "statement": "For a dataset on a grid whose sigma variables are at different locations and follow the CF generic form 2 of the s coordinate, with their formula terms among the data variables, and which has no variable named as a depth, decode_cf_sigma returns the dataset with exactly one more coordinate per sigma variable, in order. Each one is named depth, followed by its location if any, has the standard name, long name and units of a depth at this location, has exactly the dimensions of the five arrays of the formula, in the order of the first data variable that has them all, and its value at each point is the depth that the CF conventions define from the values of the dataset at this point. The data variables and the other coordinates are unchanged.", "quantifier": "all datasets, numbers of sigma variables, names of variables, dimensions in any order and of any sizes, values with missing ones anywhere; all values of rename and errors", "why_tests_cant": "ranges over all datasets of any structure and all their values", "anchors": ["xoa/sigma.py:decode_cf_sigma", "xoa/sigma.py:get_sigma_terms", "xoa/sigma.py:decode_formula_terms", "xoa/sigma.py:ocean_s_coordinate_g2", "xoa/cf.py:SGLocator.format_dataarray"]}
{"id": "C215", "title": "sessions that run at the same time", "statement": "Several processes may call get_cf_specs with any cache mode on the same cache file at the same time. Whatever the order in which the operating system executes their system calls, and even if some are killed in the middle of a write, every call ends, gives the specifications of the configuration files, and does not fail because of the other processes.", "quantifier": "all numbers of processes, all modes, all interleavings of their system calls, all sizes of reads and writes, all points where a process is killed", "why_tests_cant": "a test runs one schedule; the property is about all interleavings and crash points", "anchors": ["xoa/cf.py:get_cf_specs", "xoa/cf.py:set_cf_specs", "xoa/cf.py:reset_cache"]}
{"id": "C216", "title": "options and threads", "statement": "Several threads may read options, load options and use set_options as a context at the same time. Whatever the order in which the interpreter switches between them, get_option gives to each one a value that the option had at the start or that a thread has given, what a thread loads is not lost, no call fails because of the other threads, and when all the threads have left their contexts the options are those before.", "quantifier": "all numbers of threads, all sequences of calls, all interleavings of their accesses to the options in memory, all contents", "why_tests_cant": "a test runs the few interleavings that happen; the property is about all of them", "anchors": ["xoa/__init__.py:get_option", "xoa/__init__.py:load_options", "xoa/__init__.py:set_options", "xoa/__init__.py:reset_options"]}
{"id": "C217", "title": "A reset that is interrupted and run again", "statement": "Whatever the number of times ConfigManager.reset(cfgfile, backup=True) is interrupted, anywhere, and run again, the contents that the file had before the first run are in the file or in its backup.", "quantifier": "all histories of runs, all points where each run is interrupted, all contents", "why_tests_cant": "ranges over all histories of interrupted runs", "anchors": ["xoa/cfgm.py:ConfigManager.reset"]}
{"id": "C218", "title": "CF specifications and threads", "statement": "Several threads may call get_cf_specs and use set_cf_specs as a context at the same time. Whatever the order in which the interpreter switches between them, no call fails, a thread gets the specifications of its own innermost context, a thread without context gets specifications that are current, and when all the threads have left their contexts the current specifications are those before.", "quantifier": "all numbers of threads, all sequences of calls, all nestings of contexts, all interleavings of their accesses to the current specifications", "why_tests_cant": "a test runs the few interleavings that happen; the property is about all of them", "anchors": ["xoa/cf.py:get_cf_specs", "xoa/cf.py:set_cf_specs", "xoa/cf.py:reset_cache"]}
{"id": "C219", "title": "2-D edges in floating-point arithmetic", "statement": "With floating-point coordinates (any precision of at least two bits, rounding to nearest, ties to even, each operation rounded), an interior corner given by get_edges_2d is a number of the type that depends on its four surrounding centres only, that is never outside of the range that they span (so four equal centres give this value), and whose error is at most three relative rounding errors of the mean magnitude of the four centres. There is no error at all for centres that are multiples of the same power of two with five bits to spare; the borders too if the memory that they are added to is zero (memory: C74).", "quantifier": "all sizes of grids, all values of the centres, all precisions, all contents of the memory", "why_tests_cant": "the rounding errors depend on the bits of the four centres; a test samples a few of them", "anchors": ["xoa/grid.py:get_edges_2d"]}
{"id": "C220", "title": "The 1-D routines access existing elements only", "statement": "The compiled 1-D routines do not check their indices: an access outside of an array reads or changes foreign memory. nearest1d and linear1d read and write existing elements only, whatever the values (sorted or not, any missing values), when all arrays have a row, the input coordinates have at most as many columns as the data and the output coordinates have a column; the numbers of rows are free. cubic1d and hermit1d moreover need at most as many rows of output coordinates as of data, and cellave1d the same and one more input edge than data; extrap1d needs nothing. With the bound checks of numba enabled, the results are then the same and no error is raised. Rows of output coordinates beyond the rows of the data should be accepted by all routines, and empty output coordinates should give an empty result without any access.", "quantifier": "all shapes, all values of the data and coordinates including unsorted and missing ones, all parameters", "why_tests_cant": "an access outside of the bounds is silent in compiled code: a test sees a plausible value or an unrelated crash", "anchors": ["xoa/interp.py:nearest1d", "xoa/interp.py:linear1d", "xoa/interp.py:cubic1d", "xoa/interp.py:hermit1d", "xoa/interp.py:extrap1d", "xoa/interp.py:cellave1d", "xoa/interp.py:get_iminmax"]}
{"id": "C221", "title": "Locating points reads the grid only", "statement": "closest2d, grid2relloc and grid2rellocs are compiled without bound checks. For all grids of any shape, with any missing values, and all targets, what they return or raise depends on the elements of the longitude and latitude arrays only, not on the memory around them; the point that closest2d returns exists; and even when the compiled closest2d returns integers that it never assigned (C70), grid2relloc reads cells of the grid only.", "quantifier": "all grids, all targets, all contents of the memory outside of the arrays", "why_tests_cant": "a read outside of the bounds is silent in compiled code and depends on the neighbouring memory", "anchors": ["xoa/interp.py:closest2d", "xoa/interp.py:grid2relloc", "xoa/interp.py:grid2rellocs"]}
{"id": "C222", "title": "Filtering along two dimensions at once or one after the other", "statement": "convolve with 1-D kernels for two dimensions of the data gives what convolve gives with the first kernel along its dimension followed by convolve with the second one, whatever the other dimensions, sizes and borders, and the order of the two steps does not matter: for plain sums of complete data with any kernels, for means (normalize=True) of complete data with kernels without negative weight and with a weight at the centre, and for data with missing values.", "quantifier": "all data arrays, all pairs of dimensions, all 1-D kernels (sizes, lists, fractions)", "why_tests_cant": "holds for all sizes of data and kernels, borders included, which needs an exchange of sums of any size", "anchors": ["xoa/filter.py:convolve", "xoa/filter.py:generate_kernel", "xoa/filter.py:generate_orthogonal_kernel"]}
{"id": "C223", "title": "More data never remove results", "statement": "When data are added to an array (the available values are kept and some missing values get a value), the values that linear, nearest, cubic and Hermite interpolation gave are unchanged, alone or through regrid1d with any dimensions; and cell averages, filtered data (nonnegative weights, normalised or not) and masks eroded by any number of turns are available at least where they were.", "quantifier": "all pairs of arrays one of which completes the other, all coordinates sorted or not, all kernels without negative weight, all numbers of turns", "why_tests_cant": "the places of the missing values are arbitrary, and the effect of one of them goes through loops that skip, break and start where the previous turn stopped", "anchors": ["xoa/interp.py:linear1d", "xoa/interp.py:nearest1d", "xoa/interp.py:cubic1d", "xoa/interp.py:hermit1d", "xoa/interp.py:cellave1d", "xoa/regrid.py:regrid1d", "xoa/filter.py:convolve", "xoa/filter.py:erode_mask"]}
{"id": "C224", "title": "Filtering a part of the data gives the part of the filtered data", "statement": "When consecutive points along each dimension are taken from an array and filtered with the same kernel, the result is the one of the whole array at the points of the part that are further from the cuts than the reach of the kernel (half of its size), with any kernel, normalised or not; the ends that the part shares with the whole array are not cuts.", "quantifier": "all arrays of any number of dimensions with any missing values, all parts, all kernels, all points", "why_tests_cant": "the size of the margin depends on the parity of the size of the kernel and on the side, and the test of the missing values is global", "anchors": ["xoa/filter.py:convolve", "xoa/filter.py:generate_kernel"]}
{"id": "C225", "title": "How far erode_mask fills", "statement": "With its default kernel, erode_mask run for n turns makes valid exactly the points that have a valid datum at n steps or less, counted along the two horizontal dimensions, in their own horizontal slice; as many turns as there are steps across the grid fill all the slices with a valid datum, and slices without one stay missing. Down to a target mask, it makes exactly as many turns (at least one) as there are steps from the valid data to the furthest point that the mask does not hide, and gives the result of this number of turns.", "quantifier": "all arrays with two horizontal dimensions and any others, all missing values, all numbers of turns, all target masks", "why_tests_cant": "the distance between a missing point and the data, the shape of the mask and the number of turns are unbounded", "anchors": ["xoa/filter.py:erode_mask", "xoa/filter.py:shapiro_kernel", "xoa/filter.py:convolve"]}
{"id": "C226", "title": "closest2d in floating-point arithmetic", "statement": "In an arithmetic of relative precision u (operations rounded to u, library functions precise to a few u), for longitudes between -360 and 360 and latitudes between -90 and 90, haversine is within 44 sqrt(u) of the angle between the two points and is NaN only for points that are antipodal to 44 sqrt(u); closest2d returns a point with known coordinates such that no other one is closer to the target by more than 88 sqrt(u), it returns one as soon as some point is not antipodal to 45 sqrt(u), and a point that is closer than all the others by more than 88 sqrt(u) is returned as in exact arithmetic.", "quantifier": "all grids with or without NaN coordinates, all targets, all rounding functions and mathematical libraries of a given precision", "why_tests_cant": "the rounding errors depend on the platform and on the coordinates; tests compare a few distances with a tolerance", "anchors": ["xoa/interp.py:haversine", "xoa/interp.py:closest2d"]}
{"id": "C227", "title": "Location in a cell in floating-point arithmetic", "statement": "The relative location that cell2relloc computes in floating-point arithmetic is the exact one up to a few rounding errors, for every ordinary cell and every point in it. This holds for rectangles whose height is exact (relative error of 10 u on both coordinates), and without rounding the program is the exact one. It does not hold for other convex cells: a point in the middle of a cell that is a parallelogram up to one unit in the last place, or a point of the rectangle of longitudes 0 to 8 and latitudes -0.1 to 3, is located more than 10^15 cells away, and a point of a rectangle of sides 2 and 1 with one corner moved by one unit in the last place at (1/4, 1/2) instead of (9/16, 1/2).", "quantifier": "all cells, all targets, all roundings of relative error u, all square roots that follow IEEE 754", "why_tests_cant": "whether a cell is a parallelogram to the last digit depends on the rounding of its coordinates; tests use one small cell with exact coordinates", "anchors": ["xoa/interp.py:cell2relloc"]}
{"id": "C228", "title": "Transposing several times", "statement": "Asking again for the same dimensions changes nothing. A transposition to an order of all the dimensions of the array followed by one to another order is the second one alone, and transposing back to the order of the array gives the array again, with the same shape and the same values at the same indices, whatever the modes. Arrays whose dimensions are all in a target have exactly the dimensions of the target, in its order, after insert or resize.", "quantifier": "all arrays of any number of dimensions, all orders, modes and sizes", "why_tests_cant": "ranges over all arrays, orders and sequences of calls", "anchors": ["xoa/coords.py:transpose"]}
{"id": "C229", "title": "Extrapolating in several steps", "statement": "Extrapolating with one mode and then with another one is extrapolating once at the ends that one or the other fills: bottom then top, or top then bottom, is both, and both is not changed by any later extrapolation. The shape never changes.", "quantifier": "all arrays with any missing values, all pairs of modes", "why_tests_cant": "ranges over all arrays and patterns of missing values", "anchors": ["xoa/interp.py:extrap1d"]}
{"id": "C230", "title": "Errors in the data are not amplified", "statement": "If two arrays differ by at most e everywhere, their results differ by at most e, with linear and nearest interpolation (also through regrid1d), cell averaging, extrapolation, normalised filtering with nonnegative weights and mask erosion after any number of turns. With cubic interpolation the results differ by at most 3 e / 2, with Hermite interpolation with the default bias and tension by at most 5 e / 4, and these factors are reached.", "quantifier": "all pairs of arrays that differ by at most e, all e, coordinates sorted or not, missing values, kernels with nonnegative weights, numbers of turns", "why_tests_cant": "compares two runs on all pairs of arrays; tests run a method on one array", "anchors": ["xoa/interp.py:linear1d", "xoa/interp.py:nearest1d", "xoa/interp.py:cubic1d", "xoa/interp.py:hermit1d", "xoa/interp.py:cellave1d", "xoa/interp.py:extrap1d", "xoa/regrid.py:regrid1d", "xoa/filter.py:convolve", "xoa/filter.py:erode_mask"]}
{"id": "C231", "title": "What a search depends on", "statement": "The multiple search for a name in a dataset gives first the variables that satisfy the first criterion, in the order of the dataset, then those of the others that satisfy the second criterion, and so on. Hence searching again among the variables found gives them again in the same order, and a dataset with its variables in another order gives the same variables. Variables that do not match change nothing to the result, its order, its labels or its exceptions, nor do the attributes of the variables other than the name, the standard name, the long name, the axis and the units.", "quantifier": "all datasets, attributes, specifications, locations, orders of variables and ways of handling errors", "why_tests_cant": "ranges over all datasets, permutations of their variables, and additions of variables and attributes", "anchors": ["xoa/cf.py:_CFCatSpecs_.match", "xoa/cf.py:_CFCatSpecs_.search"]}
{"id": "C232", "title": "Loading options in several calls", "statement": "After several calls of load_options, one at least of which succeeds, get_option gives for each option the value of the last call that gives it, converted by the validation, or else the value that the option had before the calls. Hence loading files one after the other is like loading once their merged content, files without common option may be loaded in any order, loading a file again or loading nothing changes nothing, and neither does a call that fails.", "quantifier": "all sequences of calls of load_options, contents, user files, states and options", "why_tests_cant": "ranges over all histories of calls and all contents", "anchors": ["xoa/__init__.py:load_options", "xoa/__init__.py:get_option"]}
{"id": "C233", "title": "What the Shapiro kernel keeps and removes", "statement": "Convolving complete data with the Shapiro kernel of one or two of their dimensions keeps, away from the edges, the fields that are linear along these dimensions, and smooths the others: it removes the waves of two grid steps.", "quantifier": "all complete data, numbers and orders of dimensions, and inner positions", "why_tests_cant": "ranges over all fields, ranks and positions", "anchors": ["xoa/filter.py:shapiro_kernel", "xoa/filter.py:convolve"]}
{"id": "C234", "title": "Symmetric kernels keep linear fields", "statement": "The normalised convolution of complete data with a kernel of odd sizes, symmetric with respect to its centre, without negative weight and not zero everywhere, keeps the value of a field that is linear in the indices wherever the kernel is inside the array, in any number and order of dimensions: the filter does not shift the field and has no bias.", "quantifier": "all linear fields, symmetric kernels, numbers, names, orders and sizes of dimensions, and positions", "why_tests_cant": "ranges over all fields, kernels, ranks and positions", "anchors": ["xoa/filter.py:convolve", "xoa/filter.py:generate_kernel"]}
{"id": "C235", "title": "Filters conserve the total", "statement": "For complete data that are zero near the edges (wherever the kernel centred at a datum would go out of the array), the plain convolution multiplies the total of the data by the sum of the kernel, whatever the kernel; the normalised convolution with a kernel without negative weight and not zero everywhere conserves the total, in any number and order of dimensions, even when the kernel is not symmetric or has even sizes.", "quantifier": "all complete data that are zero near the edges, kernels, numbers, names, orders and sizes of dimensions", "why_tests_cant": "ranges over all data, kernels and ranks", "anchors": ["xoa/filter.py:convolve", "xoa/filter.py:generate_kernel"]}
{"id": "C236", "title": "Eroding in several calls", "statement": "With any accepted kernel, calling erode_mask for m turns and then for n turns gives what m + n turns give, and no turn (or a negative number) gives the data. Eroding down to a mask and then down to another one gives what the total number of turns gives, with every point that one of the masks does not hide valid; if the first result does not already reach the second mask, it gives what eroding down to the second mask at once gives. Eroding again down to the same mask makes exactly one more turn.", "quantifier": "all data, accepted kernels, numbers of turns and pairs of target masks", "why_tests_cant": "ranges over all histories of calls, kernels, masks and data", "anchors": ["xoa/filter.py:erode_mask"]}
{"id": "C237", "title": "Closest point with errors in the positions and in a part of a grid", "statement": "When the target is moved by an angle of at most d and the known grid points by at most e, closest2d returns a point that is at most 2 (d + e) further from the original target than the closest one; a point that is closer than all the others by more than 2 (d + e), and not within d + e of the antipode of the target, is returned with and without the errors. When the closest point of a grid is in a rectangular part of it, closest2d on the part alone returns that same point.", "quantifier": "all grids (missing points included), targets, errors in the positions and rectangular parts", "why_tests_cant": "ranges over all grids, targets and perturbations", "anchors": ["xoa/interp.py:closest2d", "xoa/interp.py:haversine"]}
{"id": "C238", "title": "Several patches of a configuration", "statement": "When a configuration is patched several times with ConfigManager.patch, each option has the value of the last patch that has it, converted to the type that the option has then; the earlier patches of an option of the configuration are forgotten as soon as their value could be converted to its type. Patches without common option each set their options as if they were alone, in any number, and their order does not matter; the options that are in no patch are unchanged.", "quantifier": "all configurations, lists of patches (compatible in their sections, with section names without underscore at their ends), types and conversions", "why_tests_cant": "ranges over all histories of patches", "anchors": ["xoa/cfgm.py:ConfigManager.patch", "xoa/cfgm.py:_walker_patch_"]}
{"id": "C239", "title": "Filtering keywords in several calls", "statement": "Filtering keywords with some prefixes, then filtering what remains with other prefixes, leaves what a single call of dict_filter with all the prefixes leaves, and the output of the single call is that of the two calls together, the last one having priority; the same holds of the outputs with copy=True, which does not take the keywords out. Calling again with the same prefixes, or some of them, gives nothing and changes nothing.", "quantifier": "all keywords, lists of prefixes and options short, keep and copy", "why_tests_cant": "ranges over all dictionaries, lists of prefixes and histories of calls", "anchors": ["xoa/misc.py:dict_filter"]}
{"id": "C240", "title": "Heights stay between the bottom and the surface", "statement": "For levels between the bottom and the top, and a stretching function given between -1 and 0 or made from theta_s and theta_b in [0, 1], the heights of the ocean sigma, s, s_g1 and s_g2 coordinates are between minus the bathymetry and the sea surface height wherever there is water (and, for s and s_g1, where the critical depth is not more than the bathymetry, and not above the sea surface for s, not negative for s_g1 and s_g2); the pressures of the atmosphere sigma coordinate are between those of the top and of the ground.", "quantifier": "all levels, stretching values and parameters, bathymetries, sea surface heights, critical depths and pressures", "why_tests_cant": "ranges over all reals", "anchors": ["xoa/sigma.py:ocean_sigma_coordinate", "xoa/sigma.py:ocean_s_coordinate", "xoa/sigma.py:ocean_s_coordinate_g1", "xoa/sigma.py:ocean_s_coordinate_g2", "xoa/sigma.py:atmosphere_sigma_coordinate"]}
{"id": "C241", "title": "The last location wins", "statement": "Relocating a name, a standard name or a long name any number of times, each time from the text written before, gives what a single call with the last location on the first text gives: nothing of the locations written in between is left. The location read from the result is the last one, and removing it gives what removing it from the first text gives. The calls succeed exactly when every location is a valid one. (Same conditions as C38: the text is made of word characters and blanks, the name format is a root, a separator without letters and the location, and in names no declared location is the beginning of another one that is used.)", "quantifier": "all texts, attributes, locators and histories of locations", "why_tests_cant": "ranges over all histories of calls", "anchors": ["xoa/cf.py:SGLocator.format_attr", "xoa/cf.py:SGLocator.parse_attr"]}
{"id": "C242", "title": "Merging several names", "statement": "Merging any number of names, standard names or long names one after the other (merge_attr with loc=None) gives the root of the last one at the last of the locations that they carry, or without location if none carries one; it does not matter how the calls are grouped. (Same conditions as C38 and C39: the texts are made of word characters and blanks, and those without location already have the blanks or underscores of their attribute. Refuted without this condition: the standard form of 'sea TEMP' is read as a name at the location temp, which the next merge keeps.)", "quantifier": "all texts, attributes, locators and lists of texts to merge", "why_tests_cant": "ranges over all histories of calls", "anchors": ["xoa/cf.py:SGLocator.merge_attr", "xoa/cf.py:SGLocator.format_attr"]}
