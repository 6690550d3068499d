{"id": "C01", "title": "Time accepts exactly the strictly increasing series", "statement": "Constructing a Time from a list of datetimes succeeds exactly when the datetimes are strictly increasing; an unsorted series or one with repeats raises TimeSeriesError and nothing else is silently accepted, reordered or dropped.", "quantifier": "every finite list of datetimes, every tz_offset / origin / displacement option", "why_tests_cant": "Tests try a handful of series; the claim is an equivalence over series of every length.", "anchors": ["gridded/time.py:Time.__init__", "gridded/time.py:Time._timeseries_is_ascending", "gridded/time.py:Time._has_duplicates"]}
{"id": "C02", "title": "index_of brackets the requested time", "statement": "For an accepted series and a time inside its range, index_of returns the one index i with data[i-1] < t <= data[i] (i = 0 only for t at the first time); with extrapolation a time before the series gives 0 and one after it gives len(data).", "quantifier": "every strictly increasing series of every length, every query time", "why_tests_cant": "The bracket must be right for every series and every query instant, including ties at each node.", "anchors": ["gridded/time.py:Time.index_of"]}
{"id": "C03", "title": "Out-of-range times are refused exactly when they should be", "statement": "index_of, valid_time and interp_alpha raise OutOfTimeRangeError exactly when the time lies outside [min_time, max_time], extrapolation was not requested and the series has more than one time (valid_time has no single-time exemption); otherwise they return a value.", "quantifier": "every non-empty accepted series, every query time, both values of extrapolate", "why_tests_cant": "An 'if and only if' over all times; a test can only sample either side of it.", "anchors": ["gridded/time.py:Time.index_of", "gridded/time.py:Time.valid_time", "gridded/time.py:Time.time_in_bounds", "gridded/time.py:Time.interp_alpha"]}
{"id": "C04", "title": "interp_alpha is a correct weight", "statement": "interp_alpha is always between 0 and 1, is 0 at the first time and 1 at later data times, and (exact arithmetic) data[i-1] + alpha*(data[i]-data[i-1]) is the query time. The range claim also holds when every arithmetic operation is rounded by an arbitrary monotone rounding.", "quantifier": "every accepted series, every query time, both extrapolate settings, every monotone rounding that keeps 0 and 1", "why_tests_cant": "Weights outside [0,1] would extrapolate data silently; whether any input or rounding can produce one is not testable.", "anchors": ["gridded/time.py:Time.interp_alpha", "gridded/time.py:Time.index_of"]}
{"id": "C05", "title": "Changing the time zone never changes the instants", "statement": "For a Time with a known offset, setting tz_offset to another offset keeps every instant (local time minus offset) the same; after any sequence of such changes the data depend only on the final offset, and returning to the first offset restores the first data. Setting from or to None relabels without shifting.", "quantifier": "every series, every finite sequence of tz_offset assignments", "why_tests_cant": "Drift can only show up over long assignment histories; tests perform one or two assignments.", "anchors": ["gridded/time.py:Time.tz_offset"]}
{"id": "C06", "title": "A displacement is applied at most once", "statement": "Over any history of assignments to tz_offset and displacement, at most one displacement takes effect: once one has been set, every later assignment of displacement raises AttributeError and leaves the data unchanged, and the data equal the original instants plus that one displacement.", "quantifier": "every finite history of assignments", "why_tests_cant": "It is an invariant of all histories, including failed assignments in the middle.", "anchors": ["gridded/time.py:Time.displacement", "gridded/time.py:Time.__init__"]}
{"id": "C07", "title": "Time objects do not share state", "statement": "Changing the offset or displacement of one Time never changes the data of another Time, nor an array the caller passed in.", "quantifier": "every program creating Times from lists, arrays or other Times and then modifying them", "why_tests_cant": "Aliasing shows up only for particular construct-then-modify interleavings across objects.", "anchors": ["gridded/time.py:Time.__init__", "gridded/time.py:Time.tz_offset", "gridded/time.py:Time.displacement"]}
{"id": "C08", "title": "Time zone resolution when loading from netCDF", "statement": "from_netCDF uses the caller's tz_offset if given, leaves the series naive if the caller says 'naive', otherwise uses the offset parsed from the units and falls back to UTC (0) when none is there; a requested new offset is then applied as a conversion, and requesting it for a naive series raises ValueError.", "quantifier": "every combination of caller argument, units string outcome and requested new offset", "why_tests_cant": "The result is a decision table over independent inputs; tests cover single rows.", "anchors": ["gridded/time.py:Time.from_netCDF", "gridded/time.py:Time.__init__", "gridded/time.py:parse_time_offset"]}
{"id": "C09", "title": "The offset name denotes the offset", "statement": "offset_as_iso_string renders an offset of a whole number of minutes as +HH:MM or -HH:MM denoting exactly that offset.", "quantifier": "every offset that is a whole number of minutes", "why_tests_cant": "There are thousands of offsets and truncation only loses a minute for some of them.", "anchors": ["gridded/time.py:offset_as_iso_string"]}
{"id": "C10", "title": "Time interpolation of a variable", "statement": "Variable.at at a data time returns that time slice exactly, between two data times it returns their linear interpolation (so the value lies between them), and with extrapolation it returns the first or last slice outside the range; a variable with a single time and a single slice is constant in time. Data have one slice per time.", "quantifier": "every accepted time series, every per-slice data, every query time (exact arithmetic)", "why_tests_cant": "Must hold at every node, in every interval, for series of every length.", "anchors": ["gridded/variable.py:Variable._time_interp", "gridded/time.py:Time.index_of", "gridded/time.py:Time.interp_alpha"]}
{"id": "C11", "title": "Level depths bracket every in-range point", "statement": "For monotone level depths in either order (surface first or bottom first), the index returned for a depth from the first listed level (included) to the last listed level (excluded) selects two adjacent levels enclosing the depth, the alpha is in [0,1] and (exact arithmetic) interpolating the two level depths with alpha gives back the depth.", "quantifier": "every strictly monotone list of level depths of length at least 2, every depth, both orders; the alpha range also under any monotone rounding", "why_tests_cant": "Order, ties on levels and ends interact; every length and depth must be right.", "anchors": ["gridded/depth.py:L_Depth.interpolation_alphas"]}
{"id": "C12", "title": "Level depth boundary conditions", "statement": "A point is masked exactly when it is beyond the surface with surface condition 'mask' or beyond the bottom with bottom condition 'mask'; otherwise a point beyond an end gets an index and alpha that select precisely that end level. A depth equal to the last listed level counts as beyond that end.", "quantifier": "every monotone level list, every depth, all four boundary condition combinations", "why_tests_cant": "Four condition combinations times two orders times every depth.", "anchors": ["gridded/depth.py:L_Depth.interpolation_alphas"]}
{"id": "C13", "title": "Sigma depths use the point's own water column and never fail on valid columns", "statement": "For every set of points, each with its own strictly monotone depth profile, the sigma interpolation picks for each point the two adjacent levels of its own column enclosing its depth with alpha in [0,1] reconstructing the depth, and the internal 'alpha out of range' error cannot be raised.", "quantifier": "every number of points and levels, every strictly monotone profile per point, both orders, every depth; alpha range also under any monotone rounding", "why_tests_cant": "A past defect used another point's column; the claim is over all collections of columns.", "anchors": ["gridded/depth.py:S_Depth.interpolation_alphas"]}
{"id": "C14", "title": "Sigma depth boundary conditions", "statement": "A sigma-coordinate point is masked exactly when its column is masked, or it is above the surface under 'mask', or at or below the seafloor under 'mask'; an unmasked point beyond an end selects precisely that end level, and the surface itself is in bounds while the seafloor is not.", "quantifier": "every profile, every depth, both orders, all boundary condition combinations", "why_tests_cant": "Boundary handling depends on order, condition and horizontal mask together.", "anchors": ["gridded/depth.py:S_Depth._apply_boundary_conditions", "gridded/depth.py:S_Depth.interpolation_alphas"]}
{"id": "C15", "title": "ROMS water columns are well formed", "statement": "With stretching from -1 to 0, positive bathymetry h and h+zeta > 0, the ROMS depth profile is 0 at the surface level, h+zeta at the bottom level and strictly decreasing from bottom to surface, for both vertical transforms.", "quantifier": "every number of levels, every strictly increasing s and C from -1 to 0, every hc >= 0 (hc <= h for transform 1), h > 0, zeta > -h (exact arithmetic)", "why_tests_cant": "Quantifies over all stretching curves and sea states.", "anchors": ["gridded/depth.py:ROMS_Depth.get_s_coordinate", "gridded/depth.py:S_Depth.get_depth_profile"]}
{"id": "C16", "title": "FVCOM water columns are well formed", "statement": "With sigma from 0 to -1 and h+zeta > 0, the FVCOM depth profile is 0 at the surface, h+zeta at the bottom and strictly increasing with the level index.", "quantifier": "every strictly decreasing sigma list from 0 to -1, every h, zeta with h+zeta > 0 (exact arithmetic)", "why_tests_cant": "Quantifies over all sigma lists and sea states.", "anchors": ["gridded/depth.py:FVCOM_Depth.get_s_coordinate", "gridded/depth.py:S_Depth.get_depth_profile"]}
{"id": "C17", "title": "The depth system is chosen unambiguously", "statement": "Loading a depth returns a surface-only depth when no depth system matches the file, the matching system when exactly one matches, and raises ValueError when more than one matches; it never guesses.", "quantifier": "every set of candidate classes and every outcome of their checks", "why_tests_cant": "A decision over all subsets of candidates in every order.", "anchors": ["gridded/depth.py:Depth.from_netCDF"]}
{"id": "C18", "title": "Vertical interpolation fills every point with its own level values", "statement": "Every unmasked point gets the linear interpolation between the two levels named by its index and alpha; points extrapolated beyond the surface or bottom get the value of that end level; masked points stay masked; no point's value depends on which other points are asked for.", "quantifier": "every number of levels or layers, every list of (index, alpha, mask) the depth object can return (exact arithmetic)", "why_tests_cant": "The result depends on the mix of points asked for together; tests use a few mixes.", "anchors": ["gridded/variable.py:Variable._depth_interp"]}
{"id": "C19", "title": "Repeating queries on a variable is transparent", "statement": "Whatever queries were made before, Variable.at returns what a fresh evaluation of that query (points, time and options) on the current data would return.", "quantifier": "every finite history of queries and data assignments", "why_tests_cant": "Cache errors need particular histories: evictions, option changes and data changes in between.", "anchors": ["gridded/variable.py:Variable.at", "gridded/variable.py:Variable._memoize_result", "gridded/variable.py:Variable._get_memoed"]}
{"id": "C20", "title": "Result caches are bounded", "statement": "Over any history of queries the result caches hold at most 5 (Variable), 9 (VectorVariable), 6 (unstructured grid), 7 (structured grid) and 3 (item caches) entries.", "quantifier": "every finite history of queries", "why_tests_cant": "A memory bound over unbounded histories.", "anchors": ["gridded/variable.py:Variable._memoize_result", "gridded/variable.py:VectorVariable._memoize_result", "gridded/pyugrid/ugrid.py:UGrid._add_memo", "gridded/pysgrid/sgrid.py:SGrid._add_memo", "gridded/pysgrid/variables.py:SGridVariable.__getitem__", "gridded/pyugrid/uvar.py:UVar.__getitem__"]}
{"id": "C21", "title": "Returned arrays are private to the caller", "statement": "Modifying an array returned by a cached query never changes what a later identical query returns.", "quantifier": "every finite history of cached queries and caller modifications of returned arrays", "why_tests_cant": "Needs an adversarial interleaving of caller writes and later hits.", "anchors": ["gridded/variable.py:Variable._memoize_result", "gridded/variable.py:Variable._get_memoed", "gridded/pyugrid/ugrid.py:UGrid._add_memo", "gridded/pyugrid/ugrid.py:UGrid._get_memoed"]}
{"id": "C22", "title": "Item access caches are transparent", "statement": "Indexing a structured or unstructured variable returns what indexing its current data would return, whatever was indexed before.", "quantifier": "every finite history of item accesses and data assignments", "why_tests_cant": "Needs histories that evict, repeat or change the data in between, and index pairs with equal printed form.", "anchors": ["gridded/pysgrid/variables.py:SGridVariable.__getitem__", "gridded/pyugrid/uvar.py:UVar.__getitem__"]}
{"id": "C23", "title": "Point location follows the current mesh", "statement": "locate_faces returns the faces of the current mesh that contain the points, whatever queries and mesh changes came before, and whichever location method is asked for.", "quantifier": "every finite history of mesh assignments and locate queries", "why_tests_cant": "Staleness needs a history; no single call shows it.", "anchors": ["gridded/pyugrid/ugrid.py:UGrid.locate_faces", "gridded/pyugrid/ugrid.py:UGrid._add_memo", "gridded/pyugrid/ugrid.py:UGrid._get_memoed", "gridded/pyugrid/ugrid.py:UGrid.nodes", "gridded/pyugrid/ugrid.py:UGrid.faces"]}
{"id": "C24", "title": "A single point always yields a single index", "statement": "locate_faces called with one point returns one index, not an array, every time it is called, and the point array passed in is not altered.", "quantifier": "every history of calls", "why_tests_cant": "The first call behaves differently from later identical ones.", "anchors": ["gridded/pyugrid/ugrid.py:UGrid.locate_faces"]}
{"id": "C25", "title": "Accepted faces index existing nodes", "statement": "After faces are assigned without an error every entry is -1 (fill) or the index of an existing node; one-based input is converted exactly when its largest index equals the number of nodes and its smallest is at least 1; everything else out of range raises ValueError.", "quantifier": "every node count, every non-empty face table", "why_tests_cant": "A safety property over all tables; an accepted bad index corrupts results later.", "anchors": ["gridded/pyugrid/ugrid.py:UGrid.faces"]}
{"id": "C26", "title": "Face neighbours are correct and symmetric", "statement": "After build_face_face_connectivity, entry (i,j) names a face sharing the j-th edge of face i, or -1; the relation is symmetric edge by edge; and on meshes where an edge belongs to at most two face sides the entry is -1 exactly when no other face side has that edge.", "quantifier": "every mesh with any number of faces and any number of vertices per face", "why_tests_cant": "The algorithm pairs edges while scanning; correctness is an invariant over all meshes and scan positions.", "anchors": ["gridded/pyugrid/ugrid.py:UGrid.build_face_face_connectivity"]}
{"id": "C27", "title": "Built edges are exactly the mesh edges", "statement": "build_edges yields every unordered pair of consecutive vertices of every face exactly once, and nothing else.", "quantifier": "every mesh", "why_tests_cant": "Completeness and uniqueness over all meshes.", "anchors": ["gridded/pyugrid/ugrid.py:UGrid.build_edges"]}
{"id": "C28", "title": "Boundaries are exactly the unshared edges", "statement": "build_boundaries yields, once each, exactly the face edges that have no matching neighbour; on manifold meshes these are the edges that belong to exactly one face, in the face's winding direction.", "quantifier": "every mesh", "why_tests_cant": "Completeness over all meshes.", "anchors": ["gridded/pyugrid/ugrid.py:UGrid.build_boundaries"]}
{"id": "C29", "title": "Boundaries form closed loops", "statement": "Every node is an end point of an even number of built boundary segments, so the boundary decomposes into closed loops.", "quantifier": "every mesh, manifold or not", "why_tests_cant": "A parity invariant over all meshes.", "anchors": ["gridded/pyugrid/ugrid.py:UGrid.build_boundaries", "gridded/pyugrid/ugrid.py:UGrid.build_face_face_connectivity"]}
{"id": "C30", "title": "Face-edge table names the right edges", "statement": "After build_face_edge_connectivity, entry (i,j) is the index of the edge joining vertices j and j+1 of face i, whenever that edge is in the edge table.", "quantifier": "every mesh and every edge table containing the mesh edges, in any order and direction", "why_tests_cant": "Uses nearest-neighbour search; correctness over all meshes.", "anchors": ["gridded/pyugrid/ugrid.py:UGrid.build_face_edge_connectivity"]}
{"id": "C31", "title": "Triangle interpolation is exact on linear fields", "statement": "Inside any non-degenerate triangle, of either winding, the interpolation weights sum to 1, reproduce the point's own coordinates, are all non-negative exactly when the point is in the closed triangle, and so interpolate every linear field exactly and never overshoot the vertex values.", "quantifier": "every non-degenerate triangle, every point, every linear field (exact arithmetic)", "why_tests_cant": "Algebraic identities over all triangles and points.", "anchors": ["gridded/pyugrid/ugrid.py:UGrid.interpolation_alphas", "gridded/pyugrid/ugrid.py:UGrid.interpolate_var_to_points"]}
{"id": "C32", "title": "The triangle containment test is right", "statement": "point_in_tri is true exactly for points of the closed triangle up to the stated relative tolerance, for triangles of either winding.", "quantifier": "every triangle and point (exact arithmetic)", "why_tests_cant": "Wrong regions can be anywhere in the plane.", "anchors": ["gridded/pyugrid/util.py:point_in_tri", "gridded/pyugrid/util.py:_signed_area_tri"]}
{"id": "C33", "title": "Simple location returns a containing face", "statement": "locate_faces with the simple method returns for each point the first face whose containment test holds, and -1 exactly when no face contains it.", "quantifier": "every mesh, every list of points", "why_tests_cant": "Claim over all meshes and point lists.", "anchors": ["gridded/pyugrid/ugrid.py:UGrid.locate_faces", "gridded/pyugrid/util.py:point_in_tri"]}
{"id": "C34", "title": "Points off an unstructured grid get the documented fill", "statement": "interpolate_var_to_points gives 0 for points outside the grid and, for points in a face, the face value or a value within the range of the vertex values; a point's result does not depend on the other points.", "quantifier": "every mesh, data array, located point list (exact arithmetic)", "why_tests_cant": "Every mix of inside and outside points.", "anchors": ["gridded/pyugrid/ugrid.py:UGrid.interpolate_var_to_points", "gridded/pyugrid/ugrid.py:UGrid.interpolation_alphas"]}
{"id": "C35", "title": "Location of data is inferred from its size", "statement": "infer_location answers 'node', 'face' or 'boundary' exactly when the last dimension matches that count (nodes win over faces, faces over boundaries) and None otherwise.", "quantifier": "every mesh size and every data shape", "why_tests_cant": "A decision over all sizes, with collisions.", "anchors": ["gridded/pyugrid/ugrid.py:UGrid.infer_location"]}
{"id": "C36", "title": "Unstructured grids survive save and load", "statement": "Saving an unstructured grid and loading it back gives the same nodes, faces, edges, boundaries, coordinate arrays and connectivity.", "quantifier": "every valid grid", "why_tests_cant": "Round trip over all grids and optional parts, including special sizes.", "anchors": ["gridded/pyugrid/ugrid.py:UGrid.save", "gridded/pyugrid/read_netcdf.py:load_grid_from_nc_dataset", "gridded/pyugrid/ugrid.py:UGrid._save_variables"]}
{"id": "C37", "title": "Boundary chaining loses nothing", "statement": "order_boundary_segments returns chains whose consecutive pairs are exactly the given segments, each used once (up to direction); every chain reported closed is a loop.", "quantifier": "every list of segments for which the function returns", "why_tests_cant": "A conservation law over all segment lists in any order.", "anchors": ["gridded/io/verdat.py:order_boundary_segments"]}
{"id": "C38", "title": "Chaining succeeds on properly oriented boundaries", "statement": "If every boundary segment joins two different nodes and every boundary node has one outgoing and one incoming segment, order_boundary_segments returns without error, every chain is closed and no open chain is left.", "quantifier": "every such list of segments, in any order", "why_tests_cant": "Success over all permutations of all loop systems.", "anchors": ["gridded/io/verdat.py:order_boundary_segments"]}
{"id": "C39", "title": "Verdat files round-trip", "statement": "Saving a dataset to verdat writes every node exactly once with consecutive numbers from 1, never writes a data row that reads as the end marker, and loading it back gives the same points (in file order), depths, units and boundary loops.", "quantifier": "every dataset with node-disjoint boundary loops", "why_tests_cant": "Round trip over all datasets; needs the writer's order and the reader's reconstruction to agree.", "anchors": ["gridded/io/verdat.py:save_verdat", "gridded/io/verdat.py:load_verdat"]}
{"id": "C40", "title": "Padding indices agree with padding slices", "statement": "For every padding type, indexing the full array with the shifted cell index gives the same value as indexing the trimmed array with the cell index, for every cell of the grid.", "quantifier": "every padding pair, every array size, every cell", "why_tests_cant": "Off-by-one errors appear for one padding type and one edge.", "anchors": ["gridded/pysgrid/sgrid.py:SGrid.apply_padding_to_idxs", "gridded/pysgrid/sgrid.py:SGrid.get_padding_slices", "gridded/pysgrid/sgrid.py:SGrid.get_padding_by_location"]}
{"id": "C41", "title": "Padding is inferred consistently from sizes", "statement": "When paddings are not given, the padding inferred for centers from array sizes is the one under which trimming leaves exactly one value per cell along each axis.", "quantifier": "every node count and center count differing by -1, 0 or +1", "why_tests_cant": "Over all sizes.", "anchors": ["gridded/pysgrid/sgrid.py:SGrid.face_padding"]}
{"id": "C42", "title": "Structured data location is inferred from shape", "statement": "infer_location returns the location whose array shape the data has, and None when no location matches.", "quantifier": "every grid shape and data shape", "why_tests_cant": "A decision over all shapes.", "anchors": ["gridded/pysgrid/sgrid.py:SGrid.infer_location"]}
{"id": "C43", "title": "The masked search tree describes the unmasked cells", "statement": "With a land mask, the k-th face handed to the search tree has the corner coordinates, in order, of the k-th unmasked cell of the grid, and a hit on face k is reported as that cell; an unmasked grid reports cells directly.", "quantifier": "every grid size and every cell mask", "why_tests_cant": "Two compressions and a reverse table must agree for every mask.", "anchors": ["gridded/pysgrid/sgrid.py:SGrid.build_celltree", "gridded/pysgrid/sgrid.py:SGrid.locate_faces"]}
{"id": "C44", "title": "Cell indices are consistent", "statement": "locate_faces turns a flat cell number into (row, column) with row*(columns-1)+column equal to it and within the grid; a miss gives the masked (-1,-1).", "quantifier": "every grid size and every cell number", "why_tests_cant": "Index arithmetic over all sizes.", "anchors": ["gridded/pysgrid/sgrid.py:SGrid.locate_faces"]}
{"id": "C45", "title": "The inverse bilinear map is exact", "statement": "For a point in a cell, the logical coordinates found for it map back to the point under the cell's bilinear map, and lie in the unit square when the point is the image of some unit square position.", "quantifier": "every cell with non-vanishing denominators and every point (exact real arithmetic)", "why_tests_cant": "Algebra over all quadrilaterals, including the linear and quadratic branches.", "anchors": ["gridded/pysgrid/sgrid.py:SGrid.x_to_l", "gridded/pysgrid/sgrid.py:SGrid._compute_transform_coeffs"]}
{"id": "C46", "title": "Node interpolation on structured grids", "statement": "At a point with logical coordinates in the unit square the four node weights are non-negative and sum to 1, so constants are reproduced and values do not overshoot; at a corner the corner's own value is returned; and fields linear in lon and lat are interpolated exactly.", "quantifier": "every cell, point and node data (exact arithmetic)", "why_tests_cant": "Identities over all cells.", "anchors": ["gridded/pysgrid/sgrid.py:SGrid.interpolate_var_to_points", "gridded/pysgrid/sgrid.py:SGrid.get_variable_by_index", "gridded/pysgrid/sgrid.py:SGrid._compute_transform_coeffs"]}
{"id": "C47", "title": "Edge interpolation on structured grids", "statement": "Data on edges are interpolated linearly across the cell between its two opposite edges, with the weight of each edge 1 at that edge and 0 at the other; under the 'zero' land condition a masked edge counts as 0.", "quantifier": "every cell, point and edge data with any mask (exact arithmetic)", "why_tests_cant": "Which offset pairs with which axis must be right for every cell.", "anchors": ["gridded/pysgrid/sgrid.py:SGrid.interpolate_var_to_points", "gridded/pysgrid/sgrid.py:SGrid.compute_interpolant"]}
{"id": "C48", "title": "Masked values are handled per point", "statement": "compute_interpolant treats each point separately: 'zero' replaces masked values by 0, 'mask' masks exactly the points with a masked value, 'mirror' replaces a masked value by minus its unmasked partner; other points are unaffected.", "quantifier": "every number of points and every mask", "why_tests_cant": "Cross-point contamination depends on the number and pattern of points.", "anchors": ["gridded/pysgrid/sgrid.py:SGrid.compute_interpolant", "gridded/pysgrid/sgrid.py:SGrid.mirror_mask_values"]}
{"id": "C49", "title": "Logical coordinates are in index order", "statement": "geo_to_logical returns (row, column) logical coordinates: the first number moves from one row of nodes to the next and the second from one column to the next.", "quantifier": "every structured grid and point", "why_tests_cant": "Symmetric test points hide a swap of axes.", "anchors": ["gridded/pysgrid/sgrid.py:SGrid.geo_to_logical", "gridded/pysgrid/sgrid.py:SGrid.x_to_l"]}
{"id": "C50", "title": "Vector rotation and averaging", "statement": "rotate_vectors preserves vector length, composes additively and is undone by the opposite angle; avg_to_cell_center returns for each adjacent pair along the chosen axis their mean, with that axis one shorter and the other unchanged.", "quantifier": "every vector and angle (exact real arithmetic), every 2-D array", "why_tests_cant": "Identities over all reals and shapes.", "anchors": ["gridded/pysgrid/processing_2d.py:rotate_vectors", "gridded/pysgrid/processing_2d.py:avg_to_cell_center", "gridded/pysgrid/processing_2d.py:vector_sum"]}
{"id": "C51", "title": "SGRID padding attributes parse back", "statement": "Parsing the conventional textual form of any list of one or two dimension paddings yields exactly those dimension names and padding types, in order.", "quantifier": "every pair of identifiers and padding words", "why_tests_cant": "Over all identifier strings.", "anchors": ["gridded/pysgrid/read_netcdf.py:parse_padding"]}
{"id": "C52", "title": "Rectangular grid location", "statement": "Grid_R.locate_faces returns the (longitude index, latitude index) of the half-open cell containing the point, and (-1,-1) exactly when the point is outside the grid's half-open extent, for ascending and for descending coordinate axes.", "quantifier": "every pair of strictly monotonic axes and every point", "why_tests_cant": "Boundaries of every cell.", "anchors": ["gridded/grids.py:Grid_R.locate_faces", "gridded/grids.py:Grid_R.center_lon", "gridded/grids.py:Grid_R.center_lat"]}
{"id": "C53", "title": "Variable search precedence", "statement": "Looking up variables by candidate names returns every key; a hit by long name beats one by variable name; a hit in the data file beats one in the grid file; among candidates the first in the list wins; a key is None only if nothing matches anywhere.", "quantifier": "every candidate table and every pair of datasets", "why_tests_cant": "Precedence over all tables and files.", "anchors": ["gridded/utilities.py:search_netcdf_vars", "gridded/utilities.py:merge_var_search_dicts", "gridded/utilities.py:search_dataset_for_variables_by_longname", "gridded/utilities.py:search_dataset_for_variables_by_varname", "gridded/utilities.py:can_create_class"]}
{"id": "C54", "title": "Point arrays are normalised to one point per row", "statement": "A set of N two- or three-dimensional points gives the same (N, 2 or 3) array whether passed one point per row or one per column, for N other than 2 and 3 where the two are indistinguishable; normalising twice changes nothing.", "quantifier": "every point list of every length", "why_tests_cant": "Shape logic over all N, including 0 and 1.", "anchors": ["gridded/utilities.py:_reorganize_spatial_data"]}
{"id": "C55", "title": "Land masks are decoded", "statement": "convert_mask_to_numpy_mask marks a cell as not masked exactly when its flag is documented as water or lake; unlisted values and all other meanings are masked.", "quantifier": "every flag table and every mask array", "why_tests_cant": "Over all flag tables.", "anchors": ["gridded/utilities.py:convert_mask_to_numpy_mask"]}
{"id": "C56", "title": "Grid type decision", "statement": "The grid type comes from the caller if given, otherwise from the file's own grid_type attribute when it names a known type, otherwise from the topology.", "quantifier": "every combination of caller argument, attribute and topology", "why_tests_cant": "A decision table.", "anchors": ["gridded/grids.py:Grid._get_grid_type"]}
{"id": "C57", "title": "Datasets are built from a file or from parts, never both", "statement": "Dataset() with a filename plus any of grid, variables or attributes raises ValueError; without a file the parts are those given; a query by attribute returns exactly the variables whose attribute has the requested value, in order.", "quantifier": "every argument combination, every variable table and every query", "why_tests_cant": "Over all combinations.", "anchors": ["gridded/gridded.py:Dataset.__init__", "gridded/gridded.py:Dataset.get_variables_by_attribute"]}
{"id": "C58", "title": "Vector variables interpolate componentwise", "statement": "VectorVariable.at returns, point by point, the row of its components' own results, and the component names chosen automatically are the first candidate set present in the file.", "quantifier": "every list of components, every points, every file", "why_tests_cant": "Over all component lists and files.", "anchors": ["gridded/variable.py:VectorVariable.at", "gridded/variable.py:VectorVariable._gen_varnames", "gridded/variable.py:Variable._gen_varname"]}
{"id": "C59", "title": "Ray casting in polygons", "statement": "points_in_polys answers true for every point strictly inside a convex polygon, and false for every point that a straight line separates from all vertices (so outside the bounding box, and outside a convex polygon); a box contains its left and lower sides and not the other two; the answer does not depend on the vertex the polygon starts from nor on the direction it is listed in.", "quantifier": "every polygon and point (exact arithmetic)", "why_tests_cant": "Over all polygons and points.", "anchors": ["gridded/pysgrid/utils.py:points_in_polys"]}
{"id": "C60", "title": "One-based connectivity is recognised", "statement": "load_from_varnames turns one-based face tables into zero-based ones: the loaded faces index existing nodes and name the nodes the file meant.", "quantifier": "every face table in either orientation", "why_tests_cant": "The start index is guessed from the data; some tables break the guess.", "anchors": ["gridded/pyugrid/grid_io/utils.py:load_from_varnames", "gridded/pyugrid/read_netcdf.py:load_grid_from_nc_dataset"]}
{"id": "C61", "title": "Efficient slices keep what they must", "statement": "The sub-window chosen for a set of cell indices contains every requested cell and its neighbours, and indices shifted by the window origin address the same data.", "quantifier": "every grid size and every non-empty set of cell indices", "why_tests_cant": "Window arithmetic over all sets.", "anchors": ["gridded/pysgrid/sgrid.py:SGrid.get_efficient_slice", "gridded/pysgrid/sgrid.py:SGrid.get_variable_by_index"]}
{"id": "C62", "title": "Dimension order does not change time interpolation", "statement": "For data stored depth first (dimension order set to depth, time, ...), the value of a level at a time is the time interpolation of that level's own series.", "quantifier": "every series, every number of levels, every time (exact arithmetic)", "why_tests_cant": "Needs every time of every series; tests use the default order.", "anchors": ["gridded/variable.py:Variable._time_interp", "gridded/variable.py:Variable.dimension_ordering"]}
{"id": "C63", "title": "Sigma interpolation serves data on layers", "statement": "For data on layer centres (one fewer than levels) with a strictly monotone profile of layer centre depths, the sigma interpolation succeeds for every depth.", "quantifier": "every number of layers, every depth and profile", "why_tests_cant": "Only points between the surface and the uppermost layer centre behave differently.", "anchors": ["gridded/depth.py:S_Depth.interpolation_alphas", "gridded/depth.py:S_Depth._apply_boundary_conditions"]}
{"id": "C64", "title": "The surface index asked for is the surface index used", "statement": "A surface-only depth loaded with a given surface index uses that index.", "quantifier": "every index", "why_tests_cant": "The argument is positional and lands in another parameter; only the default hides it.", "anchors": ["gridded/depth.py:DepthBase.from_netCDF", "gridded/depth.py:DepthBase.__init__"]}
{"id": "C65", "title": "Loading level depths zeroes the shallowest level only", "statement": "Loading level depths replaces exactly the shallowest level by 0 and keeps the rest, in either listing order; if the other levels are positive the result is still strictly monotone.", "quantifier": "every strictly monotone level list; for arbitrary lists the replaced level is a smallest one", "why_tests_cant": "Over all lists and both orders.", "anchors": ["gridded/depth.py:L_Depth.from_netCDF"]}
{"id": "C66", "title": "Variable slices remove the declared padding", "statement": "For a structured grid loaded from a file, every variable gets a slice per dimension, and along a dimension with a declared padding the slice removes exactly that padding.", "quantifier": "every declared padding, every variable and every file with or without vertical dimensions", "why_tests_cant": "All test files declare vertical dimensions and none uses 'high' padding.", "anchors": ["gridded/pysgrid/utils.py:determine_variable_slicing", "gridded/pysgrid/sgrid.py:SGrid.padding_slices", "gridded/pysgrid/sgrid.py:SGrid.all_padding"]}
{"id": "C67", "title": "Nearest-neighbour lookup reads the nearest value", "statement": "Nearest-neighbour lookup on a structured grid returns for each point the value stored at the nearest location, on first use and later, whether the location is inferred or given.", "quantifier": "every grid, location, set of points and data", "why_tests_cant": "Depends on the state of the search trees and on shapes that tests do not combine.", "anchors": ["gridded/pysgrid/sgrid.py:SGrid.nearest_var_to_points", "gridded/pysgrid/sgrid.py:SGrid.locate_nearest"]}
{"id": "C68", "title": "A declared padding applies to its own dimension", "statement": "The padding used along an axis of the cell-center arrays is the one the file declares for that axis's dimension, in whichever order the dimensions are declared.", "quantifier": "every pair of declarations and either order of axes", "why_tests_cant": "Tests use equal paddings on both axes, where the order does not show.", "anchors": ["gridded/pysgrid/sgrid.py:SGrid.face_padding"]}
{"id": "C69", "title": "Each location query honours its own mask setting", "statement": "A query with use_mask reports only unmasked cells and one without reports any cell, whatever queries came before on the same grid.", "quantifier": "every grid, mask and sequence of queries", "why_tests_cant": "The search tree is built once and kept; order of queries decides.", "anchors": ["gridded/pysgrid/sgrid.py:SGrid.locate_faces", "gridded/pysgrid/sgrid.py:SGrid.build_celltree"]}
{"id": "C70", "title": "Precomputed weights do not change the result", "statement": "Passing interpolation weights to interpolate_var_to_points gives the same result as letting it compute them.", "quantifier": "every location, grid and set of points", "why_tests_cant": "Only one of the branches is normally run.", "anchors": ["gridded/pysgrid/sgrid.py:SGrid.interpolate_var_to_points"]}
{"id": "C71", "title": "Every point of a proper cell gets logical coordinates", "statement": "In a cell whose bilinear map is one to one, every point of the cell gets finite logical coordinates, in the unit square, whichever way the rows of nodes run.", "quantifier": "every such cell and every point in it (exact arithmetic)", "why_tests_cant": "Grids in tests have rows running east; divisions by zero depend on the orientation.", "anchors": ["gridded/pysgrid/sgrid.py:SGrid.x_to_l"]}
{"id": "C72", "title": "Rectangular grids treat (lon, lat) and (lat, lon) variables alike", "statement": "On a rectangular grid a variable stored by (latitude, longitude) and its transpose stored by (longitude, latitude) interpolate to the same value at every point.", "quantifier": "every grid, variable and point, over any interpolator that is symmetric in its axes", "why_tests_cant": "Which axis is which is decided by names, lengths and object identity.", "anchors": ["gridded/grids.py:Grid_R.interpolate_var_to_points", "gridded/grids.py:Grid_R.lonlat_to_yx"]}
{"id": "C73", "title": "Rectangular grids infer locations without raising", "statement": "Grid_R.infer_location answers from the location attribute if there is one, otherwise node or center by shape, and None for any other shape.", "quantifier": "every grid and every shape", "why_tests_cant": "Shapes that match nothing are not tried.", "anchors": ["gridded/grids.py:Grid_R.infer_location"]}
{"id": "C74", "title": "A given grid topology is honoured", "statement": "Node coordinates come from the variables that the grid_topology names; without one, from the first pair of conventional names present in the file regardless of case, and otherwise ValueError.", "quantifier": "every file and every topology", "why_tests_cant": "Over all names; tests use lower-case names.", "anchors": ["gridded/grids.py:GridBase._find_required_grid_attrs"]}
{"id": "C75", "title": "Axes attributes are parsed to the names they give", "statement": "parse_axes of an attribute 'X: a Y: b' returns the variable names a and b, the last one given for each axis.", "quantifier": "every list of axis letters and names", "why_tests_cant": "Over all names; tests use names of letters.", "anchors": ["gridded/pysgrid/read_netcdf.py:parse_axes"]}
{"id": "C76", "title": "The direction of a vector component comes from its standard name", "statement": "parse_vector_axis returns the letter of the first _x_, _y_ or _z_ in a name of lower-case words and None for names without one, and never raises.", "quantifier": "every string", "why_tests_cant": "Over all strings.", "anchors": ["gridded/pysgrid/read_netcdf.py:parse_vector_axis"]}
{"id": "C77", "title": "Node coordinates are found among other variables", "statement": "find_node_coordinates returns the longitude and latitude variables on the node dimensions whatever other variables share these dimensions, and None if either is missing.", "quantifier": "every file", "why_tests_cant": "Over all names of other variables.", "anchors": ["gridded/pysgrid/read_netcdf.py:NetCDFDataset.find_node_coordinates"]}
{"id": "C78", "title": "Faces of a file are normalised", "statement": "When an unstructured grid is found in a file, its faces come out as one triangle per row with indices counting from zero, whether the file stores them by rows or by columns and counts from zero or from one.", "quantifier": "every list of triangles", "why_tests_cant": "Over all numbers of triangles and nodes; tests use a few files.", "anchors": ["gridded/grids.py:Grid_U._find_required_grid_attrs"]}
{"id": "C79", "title": "Recorded topology names exist in the file", "statement": "When the parts of a grid are found in a file without a topology, every name recorded in the resulting topology is that of a variable in the file.", "quantifier": "every file", "why_tests_cant": "Over all sets of variable names.", "anchors": ["gridded/grids.py:GridBase._find_required_grid_attrs", "gridded/grids.py:Grid_U._find_required_grid_attrs", "gridded/grids.py:Grid_S._find_required_grid_attrs", "gridded/grids.py:Grid_R._find_required_grid_attrs"]}
{"id": "C80", "title": "Files of a recognised kind load", "statement": "If the kind of grid of a file is recognised without the caller's help, then loading that file builds a grid of this kind from the variables found.", "quantifier": "every file", "why_tests_cant": "Over all sets of variables; tests use a few files.", "anchors": ["gridded/grids.py:Grid.from_netCDF", "gridded/grids.py:Grid._get_grid_type"]}
{"id": "C81", "title": "Structured grids find their optional parts", "statement": "When a structured grid is found in a file, the coordinates of centers and edges are those of the first usual pair of names in the file and their masks are those present; parts not in the file are absent; with a caller's topology each optional part is the variable it names.", "quantifier": "every file", "why_tests_cant": "Over all sets of variables; tests use a few files.", "anchors": ["gridded/grids.py:Grid_S._find_required_grid_attrs"]}
{"id": "C82", "title": "Vector variables report their units", "statement": "The units of a vector variable are those it was given: a text is reported as it is, a list of equal units as the common one and a list of different units as the list; units collected from a file follow the same rule.", "quantifier": "every text and every list of units", "why_tests_cant": "Over all texts; tests use one.", "anchors": ["gridded/variable.py:VectorVariable.units", "gridded/variable.py:VectorVariable.from_netCDF"]}
{"id": "C83", "title": "Vector variables need two components", "statement": "Building a vector variable from fewer than two components raises ValueError; otherwise the components are kept in order and under the names of the class, and units, time and grid not given are those of the first component.", "quantifier": "every list of components and every choice of arguments", "why_tests_cant": "Over all lists; tests build two-component vectors.", "anchors": ["gridded/variable.py:VectorVariable.__init__"]}
{"id": "C84", "title": "A topology given with a file is used", "statement": "However a dataset is made from a file, the grid topology given by the caller is the one used to load the grid; separate files for grid and variables raise NotImplementedError.", "quantifier": "every file and every topology", "why_tests_cant": "Over all files; tests never pass a topology to the constructor.", "anchors": ["gridded/gridded.py:Dataset.__init__", "gridded/gridded.py:Dataset.from_netCDF", "gridded/gridded.py:Dataset._init_from_netCDF"]}
{"id": "C85", "title": "Datasets load every variable that is not part of the grid", "statement": "Loading a dataset loads, in order, exactly the variables of the file that are not used by the grid and have a location, stated or inferred; each gets its long name, or else its name, and its location.", "quantifier": "every file, topology and inference of locations", "why_tests_cant": "Over all files; a topology is full of words a test does not think of.", "anchors": ["gridded/gridded.py:Dataset._variables_from_netCDF"]}
{"id": "C86", "title": "Datasets are saved in the format asked for", "statement": "Saving writes the file in the requested format, netcdf3 or netcdf4; other formats raise ValueError before anything is written.", "quantifier": "every dataset and every format", "why_tests_cant": "Tests save one format.", "anchors": ["gridded/gridded.py:Dataset.save"]}
{"id": "C87", "title": "Time axis and data keep their lengths together", "statement": "After construction and any sequence of assignments, successful or not, a variable's time axis has at most one entry or as many as the first dimension of its data; a mismatch raises ValueError.", "quantifier": "every variable and every sequence of assignments", "why_tests_cant": "Over all sequences of assignments.", "anchors": ["gridded/variable.py:Variable.time", "gridded/variable.py:Variable.data", "gridded/variable.py:Variable.__init__"]}
{"id": "C88", "title": "Data a variable holds can be assigned to it again", "statement": "Whatever data the constructor accepted may be assigned again, and so may other data of the same length; nothing else about the variable changes.", "quantifier": "every variable and data", "why_tests_cant": "Over all combinations of time axis and data.", "anchors": ["gridded/variable.py:Variable.data", "gridded/variable.py:Variable.__init__"]}
{"id": "C89", "title": "The location of a variable is where its data fit", "statement": "If no location is given, the location of a variable with a grid is the one where its current data fit the grid, and data that fit nowhere are refused.", "quantifier": "every grid, data and sequence of assignments", "why_tests_cant": "Over all shapes and assignments.", "anchors": ["gridded/variable.py:Variable.data", "gridded/variable.py:Variable.location"]}
{"id": "C90", "title": "Stated locations are honoured", "statement": "A location given by the caller, or else stated by the data, is the location of the variable; an unknown location given raises ValueError.", "quantifier": "every grid, data and location", "why_tests_cant": "Needs grids with equally many nodes and faces.", "anchors": ["gridded/variable.py:Variable.location", "gridded/variable.py:Variable.__init__", "gridded/variable.py:Variable.from_netCDF"]}
{"id": "C91", "title": "The order of dimensions describes the data", "statement": "The order of dimensions, if not assigned, has one name for each dimension of the data and ends with the horizontal dimensions; it names a time or a depth only if the variable has one; data of too few or too many dimensions raise ValueError.", "quantifier": "every variable", "why_tests_cant": "Over all shapes, grids, times and depths.", "anchors": ["gridded/variable.py:Variable.dimension_ordering"]}
{"id": "C92", "title": "Variables of a file are read by the dimensions they have", "statement": "A variable loaded from a file has a depth exactly if its data have a vertical dimension, and its order of dimensions is that of its data, with a time only if the data have one.", "quantifier": "every file variable with horizontal dimensions and perhaps time and depth, with or without a time given", "why_tests_cant": "Over all combinations of dimensions and arguments.", "anchors": ["gridded/variable.py:Variable.from_netCDF", "gridded/variable.py:Variable.dimension_ordering"]}
{"id": "C93", "title": "Connectivity tables belong to the faces", "statement": "After any sequence of assignments, deletions and builds, successful or not, the face-face and face-edge tables an unstructured grid holds have one row for each current face and one entry for each side, and a built neighbour table describes the current faces.", "quantifier": "every sequence of operations on an unstructured grid", "why_tests_cant": "Over all histories; tests build each table once.", "anchors": ["gridded/pyugrid/ugrid.py:UGrid.faces", "gridded/pyugrid/ugrid.py:UGrid.nodes", "gridded/pyugrid/ugrid.py:UGrid.face_face_connectivity", "gridded/pyugrid/ugrid.py:UGrid.face_edge_connectivity", "gridded/pyugrid/ugrid.py:UGrid.build_boundaries"]}
{"id": "C94", "title": "Representative points belong to their elements", "statement": "After any sequence of assignments, deletions and builds, the face, edge and boundary coordinates an unstructured grid holds have one point for each current face, edge and boundary segment, so that it can be saved.", "quantifier": "every sequence of operations on an unstructured grid", "why_tests_cant": "Over all histories.", "anchors": ["gridded/pyugrid/ugrid.py:UGrid.faces", "gridded/pyugrid/ugrid.py:UGrid.build_face_coordinates", "gridded/pyugrid/ugrid.py:UGrid.save"]}
{"id": "C95", "title": "Representative points are the averages of the nodes", "statement": "The coordinates built for faces, edges and boundary segments are the averages of the nodes of each; they lie within every rectangle around the nodes; a number of a node that does not exist raises IndexError.", "quantifier": "every mesh, with any number of vertices per face, padded or not", "why_tests_cant": "Over all meshes, including those of faces of different size.", "anchors": ["gridded/pyugrid/ugrid.py:UGrid.build_face_coordinates", "gridded/pyugrid/ugrid.py:UGrid.build_edge_coordinates", "gridded/pyugrid/ugrid.py:UGrid.build_boundary_coordinates"]}
{"id": "C96", "title": "Nearest nodes are searched among the current nodes", "statement": "After any sequence of operations, locating nodes searches the nodes the grid has then.", "quantifier": "every sequence of operations on an unstructured grid", "why_tests_cant": "Over all histories; tests do not move nodes.", "anchors": ["gridded/pyugrid/ugrid.py:UGrid.locate_nodes", "gridded/pyugrid/ugrid.py:UGrid.nodes"]}
{"id": "C97", "title": "Lines are the edges of the mesh", "statement": "The lines of an unstructured grid are the edges of its current faces, each once, as its two end points.", "quantifier": "every mesh and every sequence of operations that assigns no edges", "why_tests_cant": "Over all meshes and histories.", "anchors": ["gridded/pyugrid/ugrid.py:UGrid.get_lines", "gridded/pyugrid/ugrid.py:UGrid.build_edges"]}
{"id": "C98", "title": "Equality of unstructured grids", "statement": "Grids are equal exactly if they are of the same class and have the same nodes, faces and boundaries; this is an equivalence, does not depend on what can be built again, and holds between a grid and what is read back from its file.", "quantifier": "all pairs and triples of grids", "why_tests_cant": "Over all pairs of grids.", "anchors": ["gridded/pyugrid/ugrid.py:UGrid.__eq__"]}
{"id": "C99", "title": "The mesh asked for is the mesh loaded", "statement": "Without a name the only mesh of a file is loaded and ValueError raised if there is none or more than one; with a name that mesh is loaded, and ValueError raised if it is not a mesh. Meshes are the variables of role mesh_topology and dimension 1 or 2.", "quantifier": "every file", "why_tests_cant": "Over all files.", "anchors": ["gridded/pyugrid/read_netcdf.py:find_mesh_names", "gridded/pyugrid/read_netcdf.py:is_valid_mesh", "gridded/pyugrid/read_netcdf.py:load_grid_from_nc_dataset"]}
{"id": "C100", "title": "Groups of variables read all their variables", "statement": "A group is made of two or more sources of one shape and distinct names; reading an item gives the columns of all sources in the group, in order, after any sequence of additions and reads.", "quantifier": "all sources and every sequence of additions and reads", "why_tests_cant": "Over all histories; tests do not add after reading.", "anchors": ["gridded/pyugrid/uvar.py:UMVar.__init__", "gridded/pyugrid/uvar.py:UMVar.add_var", "gridded/pyugrid/uvar.py:UMVar.__getitem__"]}
{"id": "C101", "title": "Attributes are taken from the data without touching the caller's", "statement": "A variable has every attribute of its netCDF data and those given by the caller that the data do not have; the dictionary of the caller is left as it was.", "quantifier": "all dictionaries of attributes", "why_tests_cant": "Over all dictionaries.", "anchors": ["gridded/pyugrid/uvar.py:UVar.__init__", "gridded/variable.py:Variable.__init__"]}
{"id": "C102", "title": "Variables are saved with the grid", "statement": "A variable whose data fit its part of an unstructured grid is saved on the dimension of its location, with its data and attributes and the name of the mesh; unknown locations, names in use and data that do not fit raise.", "quantifier": "every grid and all variables", "why_tests_cant": "Over all variables; the attributes come from any file.", "anchors": ["gridded/pyugrid/ugrid.py:UGrid._save_variables", "gridded/pyugrid/ugrid.py:UGrid.save"]}
{"id": "C103", "title": "The variable that describes a structured grid", "statement": "Loading finds the variable of role grid_topology exactly if it is the only one and states a topology dimension of 2; otherwise ValueError is raised.", "quantifier": "every file", "why_tests_cant": "Over all files.", "anchors": ["gridded/pysgrid/read_netcdf.py:find_grid_topology_var"]}
{"id": "C104", "title": "The dimension a variable is averaged along", "statement": "Every variable on a structured grid gets its axes: one that lies on edges gets, among its last two dimensions, the axis to average along and the other one; variables at centers or at nodes, which need no averaging, get none.", "quantifier": "all declared paddings and all lists of dimensions", "why_tests_cant": "Over all lists of dimensions; tests use two or three variables of known models.", "anchors": ["gridded/pysgrid/utils.py:infer_avg_axes"]}
{"id": "C105", "title": "Where a variable is", "statement": "A variable has the location it states; one that states none has the location its dimensions are declared for: face, edge1 or edge2, node, or none if it is on no part of the grid.", "quantifier": "all declared paddings and all variables", "why_tests_cant": "Over all variables.", "anchors": ["gridded/pysgrid/utils.py:infer_variable_location", "gridded/pysgrid/variables.py:SGridVariable.create_variable"]}
{"id": "C106", "title": "Coordinates of a location", "statement": "The coordinates of faces or edges are those the description names; without names they are the longitude and latitude, in this order, named by the variables at that location, and nothing if there are none.", "quantifier": "every file", "why_tests_cant": "Over all files and all spellings of the attribute.", "anchors": ["gridded/pysgrid/sgrid.py:SGridAttributes.get_attr_coordinates", "gridded/pysgrid/read_netcdf.py:NetCDFDataset.find_coordinates_by_location"]}
{"id": "C107", "title": "Masks belong to their location", "statement": "The mask of nodes, centers or edges is the first variable called a mask that lies on the same dimensions as their coordinates; there is none without such a variable.", "quantifier": "every file", "why_tests_cant": "Over all files.", "anchors": ["gridded/pysgrid/sgrid.py:SGridAttributes.get_masks"]}
{"id": "C108", "title": "Angles of a grid", "statement": "Without a variable for them, the angles of a structured grid are, for each center, the angle from east towards north at which its neighbour in the row is seen, in a range of one turn; the last in a row has the angle of the one before.", "quantifier": "all pairs of points of the sphere, all arrays of centers", "why_tests_cant": "Over all directions; real-valued.", "anchors": ["gridded/pysgrid/utils.py:calculate_bearing", "gridded/pysgrid/utils.py:calculate_angle_from_true_east", "gridded/pysgrid/sgrid.py:SGridAttributes.get_angles"]}
{"id": "C109", "title": "Equality of structured grids", "statement": "Two structured grids of one class are equal exactly if all their coordinates, masks and paddings are; a grid is equal to its copies, and equality is symmetric.", "quantifier": "all pairs of grids", "why_tests_cant": "Over all pairs of grids.", "anchors": ["gridded/pysgrid/sgrid.py:SGrid.__eq__"]}
{"id": "C110", "title": "Files that say how to read them load", "statement": "A file whose only description names the node dimensions, two padded face dimensions and the coordinates of nodes can be loaded; the grid has the dimensions, texts and paddings of the description and every variable of the file.", "quantifier": "every file", "why_tests_cant": "Over all files, including those with few of the optional attributes.", "anchors": ["gridded/pysgrid/sgrid.py:SGrid.load_grid", "gridded/pysgrid/sgrid.py:SGridAttributes.get_attr_dimension", "gridded/pysgrid/sgrid.py:SGridAttributes.get_variable_attributes"]}
{"id": "C111", "title": "A structured grid survives being saved", "statement": "A loaded structured grid can be saved, and loading the saved file gives the same grid: dimensions, names, paddings, coordinates of nodes, centers and edges, angles, and all variables with their dimensions, axes, slices and locations.", "quantifier": "every grid that can be loaded", "why_tests_cant": "Over all files that can be loaded.", "anchors": ["gridded/pysgrid/sgrid.py:SGrid.save_as_netcdf", "gridded/pysgrid/sgrid.py:SGrid._save_common_components", "gridded/pysgrid/sgrid.py:SGrid.load_grid"]}
{"id": "C112", "title": "Other variables do not disturb the grid", "statement": "The coordinates and angles a loaded grid holds are those of the variables named as coordinates and of the variable of angles, whatever other variables the file has.", "quantifier": "every file", "why_tests_cant": "Over all names of variables.", "anchors": ["gridded/pysgrid/sgrid.py:SGridAttributes.get_variable_attributes", "gridded/pysgrid/sgrid.py:SGrid.load_grid"]}
{"id": "C113", "title": "A value in space and time", "statement": "Evaluating a variable at points and a time gives, for each point, the weighted mean of the values at two neighbouring times, the same two times and weight for all points; each of those values is the weighted mean, at the index and weight of the point's own depth, of what the horizontal interpolation gives at that point on the levels. Points the depths mask stay masked.", "quantifier": "every horizontal interpolation, depth object, axis of times, query time and list of points", "why_tests_cant": "Over all depth objects, all lists of points and all orders of levels at once; tests run one stage at a time.", "anchors": ["gridded/variable.py:Variable.at", "gridded/variable.py:Variable._time_interp", "gridded/variable.py:Variable._depth_interp", "gridded/variable.py:Variable._xy_interp"]}
{"id": "C114", "title": "Multilinear fields are reproduced", "statement": "A variable whose node data sample a field that is linear in position, in depth and in time returns that field's value at every located point, at every depth between the first and last level, the ends included, and every time of the axis.", "quantifier": "all meshes of triangles and all structured grids, all axes of times and levels, listed upwards or downwards, all points", "why_tests_cant": "An identity over real numbers and all sizes; no sample of points establishes it.", "anchors": ["gridded/variable.py:Variable.at", "gridded/pyugrid/ugrid.py:UGrid.interpolate_var_to_points", "gridded/pysgrid/sgrid.py:SGrid.interpolate_var_to_points", "gridded/depth.py:L_Depth.interpolation_alphas"]}
{"id": "C115", "title": "No value outside the data", "statement": "With all data between two bounds, every result that is not masked is a number between the same bounds, at whatever depth and time the variable serves.", "quantifier": "all meshes of triangles and structured grids, all depth objects, times and points", "why_tests_cant": "Over all data and weights.", "anchors": ["gridded/variable.py:Variable.at", "gridded/variable.py:Variable._depth_interp"]}
{"id": "C116", "title": "Points do not influence each other", "statement": "The result for a point does not depend on which other points are asked for in the same call, nor on their order or number.", "quantifier": "all pairs of queries with a common point", "why_tests_cant": "Over all pairs of queries; the depth stage works on groups of points.", "anchors": ["gridded/variable.py:Variable.at", "gridded/variable.py:Variable._depth_interp"]}
{"id": "C117", "title": "Extrapolation in time is the nearest end", "statement": "With extrapolation on, a query at any time gives exactly what the query at the nearest time of the axis gives with extrapolation off, values, masks and exceptions alike; with a single time on the axis the time asked for makes no difference.", "quantifier": "all kinds of data, grids and depths, all axes and times", "why_tests_cant": "An equality of two calls over all states.", "anchors": ["gridded/variable.py:Variable.at", "gridded/variable.py:Variable._time_interp", "gridded/time.py:Time.interp_alpha", "gridded/time.py:Time.index_of"]}
{"id": "C118", "title": "Masked and missing data", "statement": "The result at a point is masked exactly if its depth is or if the horizontal value of one of the levels and times that carry weight is masked there; it is a number when all of them are. Other levels, times and points make no difference.", "quantifier": "every horizontal interpolation, depth object, axis of times, query time, pattern of masks and list of points", "why_tests_cant": "Over all patterns of masks at once; test data have none or one.", "anchors": ["gridded/variable.py:Variable.at", "gridded/variable.py:Variable._depth_interp", "gridded/variable.py:Variable._time_interp"]}
{"id": "C119", "title": "Results arranged like the points", "statement": "Results computed point by point come back arranged like the points they were computed for: by rows for points by rows, by columns for points by columns, whatever additional axes of length one the points have; results with another number of rows come back unchanged.", "quantifier": "every number of points above three, of coordinates, of results per point and every data", "why_tests_cant": "Over all shapes; the tests use a few and compare the shape, not the entries.", "anchors": ["gridded/utilities.py:_align_results_to_spatial_data", "gridded/utilities.py:_reorganize_spatial_data"]}
{"id": "C120", "title": "Which datasets the arguments name", "statement": "Given a file name, a dataset, a data file and a grid file in any combination, the data and the grid are read from the documented ones; the same file is opened once, and a file already open is not opened again.", "quantifier": "every combination of arguments, kinds of file names and state of the open files", "why_tests_cant": "Over all combinations; tests that pass one argument see nothing of the priorities.", "anchors": ["gridded/utilities.py:parse_filename_dataset_args", "gridded/utilities.py:get_dataset"]}
{"id": "C121", "title": "A file name has the lowest priority", "statement": "A file name given together with a data file or a grid file is used only for what they do not give.", "quantifier": "every combination of arguments", "why_tests_cant": "Over all combinations; the tests pass one argument at a time.", "anchors": ["gridded/utilities.py:parse_filename_dataset_args"]}
{"id": "C122", "title": "Regridded variables agree with their source", "statement": "A regridded variable holds at every node, time and level what the source variable gives there, masked where the new grid leaves the old one.", "quantifier": "every source variable, grid, time axis, number of levels and evaluation result", "why_tests_cant": "Over all sources; a test compares one smooth field inside the grid, where there are no masks.", "anchors": ["gridded/utilities.py:regrid_variable"]}
{"id": "C123", "title": "Where variables can be regridded to", "statement": "Variables can be regridded to the nodes or the centers of structured and unstructured grids; edges are refused with NotImplementedError.", "quantifier": "every location word, pair of kinds of grids and kind of depth", "why_tests_cant": "Over all combinations; the tests regrid to nodes of one structured grid.", "anchors": ["gridded/utilities.py:regrid_variable", "gridded/utilities.py:_regrid_s_depth"]}
{"id": "C124", "title": "Constant variables are constant", "statement": "A constant variable gives its value for all times and places.", "quantifier": "every value, time, depth and list of points anywhere, with and without unmasking", "why_tests_cant": "Over all points; tests do not try the poles.", "anchors": ["gridded/variable.py:Variable.constant", "gridded/variable.py:Variable.at"]}
{"id": "C125", "title": "Which depth systems a file has", "statement": "A file has ROMS or FVCOM depths exactly if it offers all their terms by name or description, zeta aside, and level depths if a variable is named or described as depth; the loaded depth is the surface, the one system there is, or an error.", "quantifier": "every data file and grid file", "why_tests_cant": "Over all files; test files contain one system with the usual names.", "anchors": ["gridded/depth.py:S_Depth._can_create_from_netCDF", "gridded/depth.py:L_Depth._can_create_from_netCDF", "gridded/depth.py:Depth.from_netCDF"]}
{"id": "C126", "title": "The layers and the levels of an FVCOM file", "statement": "In a file with variables named siglay and siglev, the layers of the depth are siglay and its levels siglev.", "quantifier": "every data file and grid file", "why_tests_cant": "Over all files and orders of variables; a file without standard names passes.", "anchors": ["gridded/depth.py:FVCOM_Depth", "gridded/utilities.py:search_netcdf_vars"]}
{"id": "C127", "title": "Center data of sigma depths end up at the nodes", "statement": "Bathymetry and zeta given at cell centers become node data: each node gets the mean of the four centers around it, is masked exactly if one of them is, and a plane seafloor keeps its depth.", "quantifier": "every size of grid, data, mask and node", "why_tests_cant": "Over all sizes and masks; a test compares one file.", "anchors": ["gridded/depth.py:S_Depth.from_netCDF"]}
{"id": "C128", "title": "Sigma depths with some parts given", "statement": "Time, bathymetry and zeta of a sigma depth may each be given; what is not given is taken from the file according to its own location, and a zeta missing from both is zero.", "quantifier": "every combination of given parts, locations and contents of the file", "why_tests_cant": "Over all combinations; tests load everything from the file.", "anchors": ["gridded/depth.py:S_Depth.from_netCDF"]}
{"id": "C129", "title": "Terms of sigma depths named by the caller", "statement": "Terms can be named by the caller, some or all; the ones not named are found by their default names.", "quantifier": "every set of names and contents of the file", "why_tests_cant": "Over all sets of names; no test names terms.", "anchors": ["gridded/depth.py:S_Depth.from_netCDF", "gridded/depth.py:S_Depth.__init__"]}
{"id": "C130", "title": "Level depths given by the caller stay as they are", "statement": "Loading a level depth with levels given by the caller leaves the caller's array unchanged.", "quantifier": "every list of levels and contents of the file", "why_tests_cant": "Over all lists; tests look at the object and not at the argument.", "anchors": ["gridded/depth.py:L_Depth.from_netCDF"]}
{"id": "C131", "title": "Depth queries on FVCOM grids succeed", "statement": "With an FVCOM depth, every located point in the water gets two neighbouring levels of the column at its own position, enclosing its depth and reproducing it by the weight.", "quantifier": "every mesh, bathymetry, free surface, sigma list, time, point, boundary condition and form of the arrays' masks", "why_tests_cant": "Over all meshes and arrays; tests look at depth profiles and never ask for a depth.", "anchors": ["gridded/depth.py:S_Depth.interpolation_alphas", "gridded/depth.py:FVCOM_Depth.get_depth_profile"]}
{"id": "C132", "title": "Values at sigma depths over a sloping seafloor", "statement": "A field linear in position and time and, at a constant rate, in depth, given on the sigma levels of the nodes, is reproduced exactly at every located point in the water, over any seafloor and under any moving surface.", "quantifier": "every grid, field, bathymetry, free surface, list of levels, time and point", "why_tests_cant": "Over all grids, seafloors and fields; tests compare few points of flat or single files.", "anchors": ["gridded/variable.py:Variable.at", "gridded/depth.py:S_Depth.interpolation_alphas", "gridded/depth.py:ROMS_Depth.get_depth_profile", "gridded/depth.py:FVCOM_Depth.get_depth_profile"]}
{"id": "C133", "title": "Time axis of a variable in a file", "statement": "A variable of a file gets the time axis its time attribute names, or the coordinate variable of its time dimension, with the times and zone it states; without either it gets a single time.", "quantifier": "every file, variable, list of times, zone and way of asking", "why_tests_cant": "Over all files; tests load a handful of files whose time variable follows the usual names.", "anchors": ["gridded/time.py:Time.from_netCDF", "gridded/time.py:Time.locate_time_var_from_var", "gridded/variable.py:Variable.from_netCDF"]}
{"id": "C134", "title": "The constant time", "statement": "The constant time is a single object in every program, and whatever the program does to it, it answers every time query with its one value.", "quantifier": "every program of creations, assignments, shifts and queries, and every time asked for", "why_tests_cant": "Over all programs and queries; tests ask once or twice.", "anchors": ["gridded/time.py:Time.constant_time", "gridded/time.py:Time.interp_alpha", "gridded/time.py:Time.index_of"]}
{"id": "C135", "title": "Automatic names are different", "statement": "Variables, vector variables, depths and grids that are given no name get names different from one another.", "quantifier": "every class hierarchy and every history of loading objects of its classes", "why_tests_cant": "Over all histories and subclass relations; tests never compare automatic names.", "anchors": ["gridded/variable.py:Variable.from_netCDF", "gridded/variable.py:VectorVariable.from_netCDF", "gridded/depth.py:S_Depth.from_netCDF", "gridded/depth.py:L_Depth.from_netCDF", "gridded/grids.py:GridBase.__init__"]}
{"id": "C136", "title": "Assigning a time to a vector variable", "statement": "A time assigned to a vector variable becomes the time of the vector and of every component if it fits all of them; otherwise the assignment raises an exception and changes nothing.", "quantifier": "every list of components, every shape of their data and everything that can be assigned", "why_tests_cant": "Over all components and arguments; tests never assign a time to a vector.", "anchors": ["gridded/variable.py:VectorVariable.time", "gridded/variable.py:Variable.time"]}
{"id": "C137", "title": "Assigning units to a vector variable", "statement": "After units are assigned to a vector variable, the vector has them and each component has its own unit: the text, or its entry of the list.", "quantifier": "every list of components and all units", "why_tests_cant": "Over all components; tests assign one text.", "anchors": ["gridded/variable.py:VectorVariable.units", "gridded/variable.py:Variable.units"]}
{"id": "C138", "title": "Vector variables of files", "statement": "A vector variable loaded from a file has, under the names of its class and in order, exactly what loading the variables one by one gives; it is loaded only if all were found.", "quantifier": "every file, grid, list of names found or given, time and depth", "why_tests_cant": "Over all files and combinations of dimensions; tests load few files with components of equal dimensions.", "anchors": ["gridded/variable.py:VectorVariable.from_netCDF", "gridded/variable.py:VectorVariable.__init__", "gridded/variable.py:Variable.from_netCDF"]}
{"id": "C139", "title": "Triangles of FVCOM connectivity", "statement": "A grid that has its triangles as an FVCOM connectivity array, nodes counted from one and in either layout, is plotted with exactly these triangles.", "quantifier": "every list of triangles and both layouts", "why_tests_cant": "Over all meshes; no test calls the function.", "anchors": ["gridded/plotting/mpl_plotting.py:GridGeoGenerator.get_triangle_faces"]}
{"id": "C140", "title": "Wireframe of a mesh", "statement": "The wireframe of a triangular mesh has exactly one line for each edge of the mesh, joining its two nodes at their places on the map, and no other lines.", "quantifier": "every triangular mesh of any size and all coordinates", "why_tests_cant": "Over all meshes; no test looks at the lines.", "anchors": ["gridded/plotting/mpl_plotting.py:GridGeoGenerator.gen_grid_lines_U"]}
{"id": "C141", "title": "Extent of a mesh", "statement": "The extent is that of the nodes as drawn, widened by the margin; with a margin that is not negative, every node is inside.", "quantifier": "every list of nodes and every margin", "why_tests_cant": "Over all nodes; no test asks for an extent.", "anchors": ["gridded/plotting/mpl_plotting.py:GridGeoGenerator.get_max_extent"]}
{"id": "C142", "title": "Clicks on a mesh", "statement": "A click where a point of the mesh is drawn selects a triangle containing the point, described by its nodes and their places; clicks elsewhere select nothing or, where there are centres, the nearest.", "quantifier": "every triangular mesh, all longitudes stored, every point", "why_tests_cant": "Over all meshes and points; no test clicks.", "anchors": ["gridded/plotting/mpl_plotting.py:GridGeoGenerator.fvcom_index_query"]}
{"id": "C143", "title": "Log of selected triangles", "statement": "After any clicks, the log has one row for each click that selected a triangle, in order, with the triangle, its nodes and places, and its centroid.", "quantifier": "every triangular mesh and every sequence of clicks", "why_tests_cant": "Over all sequences of clicks; no test runs a session.", "anchors": ["gridded/plotting/mpl_plotting.py:PureMatplotlibFVCOMViewer.draw_query_result", "gridded/plotting/mpl_plotting.py:PureMatplotlibFVCOMViewer.on_click"]}
{"id": "C144", "title": "Highlights of the selected triangle", "statement": "After any clicks, what is highlighted on the map is the last triangle selected and nothing else.", "quantifier": "every triangular mesh and every sequence of clicks", "why_tests_cant": "Over all sequences of clicks; no test runs a session.", "anchors": ["gridded/plotting/mpl_plotting.py:PureMatplotlibFVCOMViewer.draw_query_result", "gridded/plotting/mpl_plotting.py:PureMatplotlibFVCOMViewer.on_click"]}
{"id": "C145", "title": "Plot of an unstructured grid", "statement": "The triangles drawn for an unstructured grid are those of the grid, and the boundaries drawn join the nodes of its boundary segments.", "quantifier": "every list of triangles and boundary segments", "why_tests_cant": "Over all grids; tests only draw and do not look.", "anchors": ["gridded/plotting/mpl_plotting.py:plot_ugrid"]}
{"id": "C146", "title": "Plot of a structured grid", "statement": "The lines drawn for a structured grid run along each edge between neighbouring nodes exactly once, and along nothing else.", "quantifier": "every shape and all nodes", "why_tests_cant": "Over all shapes; tests only draw and do not look.", "anchors": ["gridded/plotting/mpl_plotting.py:plot_sgrid"]}
{"id": "C147", "title": "Weighted sums of fields", "statement": "Evaluating a weighted sum of two fields gives at every point and time the same weighted sum of the two results; the same points are masked and the same exceptions raised.", "quantifier": "all grids, data on any location, times, depths, points and weights", "why_tests_cant": "Over all fields and weights; no test compares evaluations of several fields.", "anchors": ["gridded/variable.py:Variable.at", "gridded/variable.py:Variable._time_interp", "gridded/variable.py:Variable._depth_interp", "gridded/pyugrid/ugrid.py:UGrid.interpolate_var_to_points", "gridded/pysgrid/sgrid.py:SGrid.interpolate_var_to_points"]}
{"id": "C148", "title": "Points on common edges of triangles", "statement": "At a point on the common edge or corner of two triangles, data on nodes have one value: it does not matter which of the triangles the search reports.", "quantifier": "every triangular grid, data, times, depths and points on a common edge or corner", "why_tests_cant": "Over all grids and points on edges; tests use points inside a triangle.", "anchors": ["gridded/pyugrid/ugrid.py:UGrid.interpolate_var_to_points", "gridded/pyugrid/ugrid.py:UGrid.interpolation_alphas", "gridded/variable.py:Variable.at"]}
{"id": "C149", "title": "Points on common edges of quadrilaterals", "statement": "At a point on the common edge of two neighbouring cells of a structured grid, data on nodes have one value: it does not matter which cell the search reports.", "quantifier": "every structured grid with convex cells, data and points on a common edge", "why_tests_cant": "Over all grids and points on edges; tests use points inside a cell.", "anchors": ["gridded/pysgrid/sgrid.py:SGrid.interpolate_var_to_points", "gridded/pysgrid/sgrid.py:SGrid.geo_to_logical"]}
{"id": "C150", "title": "Numbering of an unstructured grid", "statement": "The values at points on the grid do not depend on how nodes and faces are numbered, nor on the order in which a triangle lists its corners.", "quantifier": "every triangular grid, every renumbering, data on nodes and faces, times, depths and points on the grid", "why_tests_cant": "Over all renumberings; no test compares two numberings of one grid.", "anchors": ["gridded/pyugrid/ugrid.py:UGrid.interpolate_var_to_points", "gridded/pyugrid/ugrid.py:UGrid.interpolation_alphas", "gridded/variable.py:Variable.at"]}
{"id": "C151", "title": "Coordinates of a grid", "statement": "The values do not depend on the origin and units of the coordinates: changing the coordinates of nodes and points alike by any invertible affine map (triangles), or by shifting and scaling each axis (structured grids), changes no result.", "quantifier": "every grid, change of coordinates, data, times, depths and points", "why_tests_cant": "Over all changes of coordinates; tests use one set of coordinates.", "anchors": ["gridded/pyugrid/ugrid.py:UGrid.interpolate_var_to_points", "gridded/pyugrid/ugrid.py:UGrid.interpolation_alphas", "gridded/pysgrid/sgrid.py:SGrid.x_to_l", "gridded/pysgrid/sgrid.py:SGrid.interpolate_var_to_points", "gridded/variable.py:Variable.at"]}
{"id": "C152", "title": "Origin of the time axis", "statement": "Moving the time axis of a variable and the time asked for by the same amount changes no result and no exception; in particular assigning another time zone or a displacement, and asking for the same instant.", "quantifier": "every variable, time axis, amount, time asked for, points", "why_tests_cant": "Over all axes and amounts; tests check the axis and not the values.", "anchors": ["gridded/time.py:Time.tz_offset", "gridded/time.py:Time.displacement", "gridded/time.py:Time.index_of", "gridded/time.py:Time.interp_alpha", "gridded/variable.py:Variable._time_interp", "gridded/variable.py:Variable.at"]}
{"id": "C153", "title": "Data times in floating point", "statement": "In double-precision arithmetic too, the value at the time of a data slice is exactly that slice's.", "quantifier": "every time axis, data in double precision and data time", "why_tests_cant": "Over all data; tests use smooth series of small numbers, where the operations happen to be exact.", "anchors": ["gridded/variable.py:Variable._time_interp", "gridded/time.py:Time.interp_alpha", "gridded/variable.py:Variable.at"]}
{"id": "C154", "title": "Rounding error in time", "statement": "Between two data times the floating-point value differs from the exact linear interpolation by at most sixteen units of rounding of the largest data value.", "quantifier": "every time axis, data, time asked for and every rounding of relative error at most 1/16 (double and single precision among them)", "why_tests_cant": "Over all data and times; tests compare with a fixed tolerance on a few numbers.", "anchors": ["gridded/variable.py:Variable._time_interp", "gridded/time.py:Time.interp_alpha", "gridded/variable.py:Variable.at"]}
{"id": "C155", "title": "Bounds between data times in floating point", "statement": "In double-precision arithmetic too, the value between two data times lies between the values of the two slices.", "quantifier": "every time axis, data in double precision and time asked for", "why_tests_cant": "Over all data; the violation is in the last digit of values much smaller than their neighbours.", "anchors": ["gridded/variable.py:Variable._time_interp", "gridded/time.py:Time.interp_alpha", "gridded/variable.py:Variable.at"]}
{"id": "C156", "title": "Rounding error in depth", "statement": "In floating-point arithmetic, at the depth of a level (other than the one listed last) the value is exactly the level's; between two levels it differs from the exact linear interpolation by at most sixteen units of rounding of the larger value; and a point outside is masked where the boundary condition says so - each point on its own, whatever other points are asked for.", "quantifier": "all level depths in increasing or decreasing order, data, depths between the levels and every rounding of relative error at most 1/16", "why_tests_cant": "Over all levels and data; tests compare with a fixed tolerance on a few numbers.", "anchors": ["gridded/depth.py:L_Depth.interpolation_alphas", "gridded/variable.py:Variable._depth_interp"]}
{"id": "C157", "title": "Rounding error in triangles", "statement": "Inside a triangle the floating-point value differs from the exact linear interpolation of the node values by at most 80 units of rounding times the largest node value times the shape of the triangle (square of its extent over twice its area).", "quantifier": "every triangle for which a unit of rounding times the shape is at most 1/144, node values, points of the triangle and every rounding of relative error at most 1/16", "why_tests_cant": "Over all triangles and points; tests use well-shaped triangles of whole numbers.", "anchors": ["gridded/pyugrid/ugrid.py:UGrid.interpolation_alphas", "gridded/pyugrid/ugrid.py:UGrid.interpolate_var_to_points"]}
{"id": "C158", "title": "Node values in floating point", "statement": "In double-precision arithmetic too, interpolating to the position of a node of a triangle gives exactly the node's value.", "quantifier": "every proper triangle, node values in double precision", "why_tests_cant": "Over all triangles; with coordinates that are small whole numbers the operations are exact.", "anchors": ["gridded/pyugrid/ugrid.py:UGrid.interpolation_alphas", "gridded/pyugrid/ugrid.py:UGrid.interpolate_var_to_points"]}
{"id": "C159", "title": "Uniform data in floating point", "statement": "In double-precision arithmetic too, data with the same value everywhere give exactly that value: in time, in depth and inside triangles.", "quantifier": "every time axis, level depths, triangle, value, time, depth and point", "why_tests_cant": "Over all positions; tests of uniform fields use a tolerance.", "anchors": ["gridded/variable.py:Variable._time_interp", "gridded/variable.py:Variable._depth_interp", "gridded/pyugrid/ugrid.py:UGrid.interpolation_alphas", "gridded/pyugrid/ugrid.py:UGrid.interpolate_var_to_points"]}
{"id": "C160", "title": "Rounding error of a whole evaluation", "statement": "Evaluating a variable on a triangular mesh in floating-point arithmetic gives the same exceptions, masks and NaNs as in exact arithmetic, and values within (80 times the shape of the triangles + 52) units of rounding of the largest data value.", "quantifier": "every mesh, data (NaN allowed) on nodes or faces with or without time and depth, level depths in increasing or decreasing order, boundary conditions, points (in their triangle or not found), time, and every rounding of relative error at most 1/1024 (double and single precision among them)", "why_tests_cant": "Over all data, points and times at once; tests compare a few numbers with a fixed tolerance.", "anchors": ["gridded/variable.py:Variable.at", "gridded/variable.py:Variable._time_interp", "gridded/variable.py:Variable._depth_interp", "gridded/pyugrid/ugrid.py:UGrid.interpolation_alphas"]}
{"id": "C161", "title": "No value outside the range of the data", "statement": "Whatever points, depths and time are asked for, and whatever points are asked for together, no number an evaluation returns lies outside the range of the data (with 0 added if a point is off the mesh or data are masked, and the range made symmetric for the mirroring of masked values).", "quantifier": "every grid (triangular or structured), data on nodes, centers, edges or faces with or without time and depth, level, ROMS or FVCOM depths, points in their cell or not found, and time", "why_tests_cant": "Over all data and all sets of points; a wrong weight shows only where neighbouring values differ enough.", "anchors": ["gridded/variable.py:Variable.at", "gridded/variable.py:Variable._depth_interp", "gridded/pyugrid/ugrid.py:UGrid.interpolate_var_to_points", "gridded/pysgrid/sgrid.py:SGrid.interpolate_var_to_points", "gridded/pysgrid/sgrid.py:SGrid.compute_interpolant"]}
{"id": "C162", "title": "Larger data give larger results", "statement": "If one field is nowhere below another, then evaluating it gives the same exceptions and masks and nowhere a smaller value (masked values not being mirrored).", "quantifier": "every pair of fields on the same grid with the same mask, and every evaluation as in the previous property", "why_tests_cant": "Over all pairs of fields; tests look at one field at a time.", "anchors": ["gridded/variable.py:Variable.at", "gridded/pyugrid/ugrid.py:UGrid.interpolate_var_to_points", "gridded/pysgrid/sgrid.py:SGrid.interpolate_var_to_points", "gridded/pysgrid/sgrid.py:SGrid.compute_interpolant"]}
{"id": "C163", "title": "Errors in the data are not amplified", "statement": "If two fields differ by no more than some amount anywhere, then evaluating them gives the same exceptions and masks and values that differ by no more than that amount.", "quantifier": "every pair of fields on the same grid with the same mask, every amount and every evaluation as in the two previous properties, including mirrored masked values", "why_tests_cant": "Over all pairs of fields; tests look at one field at a time.", "anchors": ["gridded/variable.py:Variable.at", "gridded/pyugrid/ugrid.py:UGrid.interpolate_var_to_points", "gridded/pysgrid/sgrid.py:SGrid.interpolate_var_to_points", "gridded/pysgrid/sgrid.py:SGrid.compute_interpolant"]}
{"id": "C164", "title": "Only values next to the point matter in time and horizontally", "statement": "Changing data at times other than the ones next to the time asked for, or at grid locations that do not belong to the cell of any point asked for, changes neither the results nor the exceptions nor the masks.", "quantifier": "every grid (triangular or structured), data on nodes, centers, edges or faces, with or without depth, any depth object, points in a cell or not found, and time", "why_tests_cant": "Over all changes of the data; a test would have to put poison everywhere else and try every point.", "anchors": ["gridded/variable.py:Variable.at", "gridded/variable.py:Variable._time_interp", "gridded/pyugrid/ugrid.py:UGrid.interpolate_var_to_points", "gridded/pysgrid/sgrid.py:SGrid.interpolate_var_to_points", "gridded/pysgrid/sgrid.py:SGrid.apply_padding_to_idxs"]}
{"id": "C165", "title": "Only levels next to the point matter", "statement": "Changing data at levels other than the ones next to the depth of some point asked for changes nothing in the results.", "quantifier": "every grid, level depths listed in either order, data over times and levels, points and time", "why_tests_cant": "Over all changes of the data at other levels; tests fill all levels with smooth data, where reading the wrong level is hard to see.", "anchors": ["gridded/variable.py:Variable.at", "gridded/variable.py:Variable._depth_interp", "gridded/depth.py:L_Depth.interpolation_alphas"]}
{"id": "C166", "title": "Results change with time no faster than the data", "statement": "If no value of the data changes with time faster than some rate, no result does: results at two times differ by at most that rate times the time between them, on whichever sides of data times the two lie and also beyond the ends; exceptions and masks are the same.", "quantifier": "every grid, data with or without depth, any depth object with weights between 0 and 1, every rate, and every two times that are served", "why_tests_cant": "Over all pairs of times and rates; a jump at a data time shows only to a test that looks just before and after it.", "anchors": ["gridded/variable.py:Variable.at", "gridded/variable.py:Variable._time_interp", "gridded/time.py:Time.interp_alpha", "gridded/time.py:Time.index_of"]}
{"id": "C167", "title": "Results change with depth no faster than the data", "statement": "If no column of the data changes with depth faster than some rate, no result does: moving points up or down changes each result by at most that rate times the distance moved by its own point.", "quantifier": "every triangular mesh, level depths in either order, data at nodes over times and levels, every rate, lists of points in their triangle and depths among the levels", "why_tests_cant": "Over all pairs of depths for all points of a query together; the jump needs one point at the last level beside others.", "anchors": ["gridded/variable.py:Variable.at", "gridded/variable.py:Variable._depth_interp", "gridded/depth.py:L_Depth.interpolation_alphas"]}
{"id": "C168", "title": "Verdat files keep what they print", "statement": "A dataset with depth units and boundary loops without common points is saved as text that can be loaded again: every node is there exactly once, its coordinates are within half a millionth and its depth within half a thousandth (then converted to a double), with the same sign, NaN and infinities kept; numbers wider than their column do no harm; units and boundary loops are the same.", "quantifier": "every number of nodes and loops, coordinates and depths of any size, NaN and infinities, and any conversion to double with relative error below 1", "why_tests_cant": "Over all numbers: a number wider than its column, one that rounds to minus zero, or a row that reads as the end marker is not in the test files.", "anchors": ["gridded/io/verdat.py:save_verdat", "gridded/io/verdat.py:load_verdat"]}
{"id": "C169", "title": "Verdat files can be saved again, as the same text", "statement": "What was loaded from a verdat file can be saved; and saving what was loaded from a saved file gives the same text, character for character.", "quantifier": "every text that loads; every dataset that was saved, with overlapping or open boundaries too", "why_tests_cant": "Over all texts and all datasets; tests compare one file and always with units.", "anchors": ["gridded/io/verdat.py:save_verdat", "gridded/io/verdat.py:load_verdat", "gridded/io/verdat.py:order_boundary_segments"]}
{"id": "C170", "title": "Second-order accuracy of evaluations", "statement": "When node data are taken from a field that around every point is linear up to second-order remainders, every result at a located point, a depth between the first and last level, the ends included, and a time of the axis differs from the field there by no more than the remainder bounds times the squares of the cell size, the level spacing and the time step.", "quantifier": "all fields with bounded curvature, all meshes of triangles and all structured grids, all axes of times and levels, listed upwards or downwards, all points", "why_tests_cant": "A bound over all fields and resolutions; tests compare values at a few points of one grid and cannot establish a rate of convergence.", "anchors": ["gridded/variable.py:Variable.at", "gridded/pyugrid/ugrid.py:UGrid.interpolate_var_to_points", "gridded/pysgrid/sgrid.py:SGrid.interpolate_var_to_points", "gridded/depth.py:L_Depth.interpolation_alphas"]}
{"id": "C171", "title": "First-order accuracy for fields with kinks", "statement": "When node data are taken from a field that changes at limited rates in position, depth and time, every result at a located point, a depth between the first and last level, the ends included, and a time of the axis differs from the field there by no more than twice the horizontal rate times the cell size, plus the vertical rate times the level spacing, plus the rate in time times the time step.", "quantifier": "all fields with limited rates, smooth or not, all meshes of triangles and all structured grids, all axes of times and levels, all points", "why_tests_cant": "A bound over all fields and resolutions; tests use linear fields or single values.", "anchors": ["gridded/variable.py:Variable.at", "gridded/pyugrid/ugrid.py:UGrid.interpolate_var_to_points", "gridded/pysgrid/sgrid.py:SGrid.interpolate_var_to_points", "gridded/depth.py:L_Depth.interpolation_alphas"]}
{"id": "C172", "title": "Second-order accuracy on terrain-following levels", "statement": "When node data on sigma levels are taken from a field that around every point is linear up to second-order remainders, and the levels are the same shares of the water column at every node, every result at a located point, a depth above the seafloor and a time of the axis differs from the field there by no more than the remainder bounds times the squares of the cell size, of the difference in water depth across a cell plus the level spacing, and of the time step.", "quantifier": "all fields with bounded curvature, all meshes of triangles and all structured grids, all seafloors and moving surfaces, all lists of sigma levels, all points", "why_tests_cant": "A bound over all fields, seafloors and resolutions; tests compare values at a few points over one seafloor and cannot establish a rate of convergence.", "anchors": ["gridded/variable.py:Variable.at", "gridded/depth.py:FVCOM_Depth.interpolation_alphas", "gridded/depth.py:ROMS_Depth.interpolation_alphas", "gridded/pyugrid/ugrid.py:UGrid.interpolate_var_to_points", "gridded/pysgrid/sgrid.py:SGrid.interpolate_var_to_points"]}
{"id": "C173", "title": "First-order accuracy on terrain-following levels", "statement": "When node data on sigma levels are taken from a field that changes at limited rates, every result at a located point, a depth within the water column and a time of the axis differs from the field there by no more than twice the horizontal rate times the cell size, plus the vertical rate times the difference in water depth across a cell plus the level spacing, plus the rate in time times the time step, also when levels are stretched or differ between nodes.", "quantifier": "all fields with limited rates, all meshes of triangles and all structured grids, all seafloors and moving surfaces, all lists of sigma levels per node, both level formulas of structured models, all points", "why_tests_cant": "A bound over all fields, seafloors and level lists; tests use linear fields or single values.", "anchors": ["gridded/variable.py:Variable.at", "gridded/depth.py:FVCOM_Depth.interpolation_alphas", "gridded/depth.py:ROMS_Depth.interpolation_alphas", "gridded/pyugrid/ugrid.py:UGrid.interpolate_var_to_points", "gridded/pysgrid/sgrid.py:SGrid.interpolate_var_to_points"]}
{"id": "C174", "title": "Grids do not change each other", "statement": "Making an unstructured grid, or assigning faces to one, changes the faces of no other grid and no array of the caller; and whatever grids share whatever arrays, the faces of every grid name nodes that grid has.", "quantifier": "all sequences of constructions and assignments, all arrays shared between grids, faces counted from zero or from one", "why_tests_cant": "Aliasing over all histories of constructions; tests make each grid from its own literal arrays.", "anchors": ["gridded/pyugrid/ugrid.py:UGrid.__init__", "gridded/pyugrid/ugrid.py:UGrid.faces"]}
{"id": "C175", "title": "Parts of a new unstructured grid", "statement": "A grid is made exactly if its nodes are given once, every face names nodes there are and the tables of neighbours and of edges of faces have an entry for every side of every face; it then holds exactly the parts given, faces counted from zero. Nodes given as two columns make the same grid as pairs, and a grid made from the parts of a grid equals it in every part.", "quantifier": "all combinations of parts, numbers of nodes and faces, faces counted from zero or from one", "why_tests_cant": "An equivalence over all combinations of a dozen optional arguments; tests build a few grids.", "anchors": ["gridded/pyugrid/ugrid.py:UGrid.__init__", "gridded/pyugrid/ugrid.py:UGrid.faces", "gridded/pyugrid/ugrid.py:UGrid.face_face_connectivity", "gridded/pyugrid/ugrid.py:UGrid.face_edge_connectivity"]}
{"id": "C176", "title": "Results change with position no faster than the data", "statement": "On a mesh of triangles that meet along whole edges, node data without gaps, moved from one point to another along a straight line that stays on the mesh: the two results differ by at most the steepest east-west slope of the data on any triangle times the distance east-west, plus the steepest north-south slope times the distance north-south, plus, at depths before the level listed last, the fastest change with depth times the change of depth; at every time served and however many triangles the line crosses.", "quantifier": "all meshes, data, times, levels in either order, pairs of points and depths", "why_tests_cant": "A bound across arbitrarily many triangles on a path; a jump at one edge, or one wrong weight in one kind of triangle, shows only on paths that cross it.", "anchors": ["gridded/pyugrid/ugrid.py:UGrid.interpolate_var_to_points", "gridded/pyugrid/ugrid.py:UGrid.interpolation_alphas", "gridded/variable.py:Variable.at", "gridded/variable.py:Variable._time_interp", "gridded/variable.py:Variable._depth_interp"]}
{"id": "C177", "title": "Data at cell centers", "statement": "Asked for data at the centers of cells, stored with rows and columns of padding around them, each point gets the value of its own cell: masked where that value is masked, masked off the grid, and the same wherever the point is in the cell, whatever other points are asked for, with or without weights given.", "quantifier": "all grids, paddings, masks, data over times and levels, lists of points on and off the grid", "why_tests_cant": "The padding offset and the mask must be right for every cell and padding; a neighbour's value looks plausible in smooth data.", "anchors": ["gridded/pysgrid/sgrid.py:SGrid.interpolate_var_to_points", "gridded/pysgrid/sgrid.py:SGrid.get_variable_at_index", "gridded/pysgrid/sgrid.py:SGrid.apply_padding_to_idxs", "gridded/pysgrid/sgrid.py:SGrid.get_padding_by_location"]}
{"id": "C178", "title": "Arguments shared by the parts of a vector", "statement": "A function decorated to share arguments is called with a dataset and a grid. What the caller gives for either is passed on unchanged. A dataset that is not given is opened from the file name or, without one, from the data file; a grid that is not given is read from the file name, else from the grid file, else from the dataset. A caller who gives enough for both always gets the function called.", "quantifier": "all combinations of file name, data file, grid file, dataset and grid, each missing, None or given; all states of open datasets", "why_tests_cant": "there are 3^5 combinations of missing, None and given arguments, and the exceptions appear only in some of them", "anchors": ["gridded/variable.py:VectorVariable._get_shared_vars", "gridded/utilities.py:get_dataset", "gridded/utilities.py:parse_filename_dataset_args"]}
{"id": "C179", "title": "Default name of a depth variable", "statement": "The search for the name of a depth variable gives the first of the wanted names that a variable of the dataset has; if there is none, the name of a variable described by one of the wanted standard names; KeyError only if there is neither.", "quantifier": "all lists of names and of standard names, all datasets", "why_tests_cant": "needs a dataset where the variable is known by its standard name only", "anchors": ["gridded/depth.py:DepthBase._gen_varname"]}
{"id": "C180", "title": "Search for any of several long names", "statement": "The search for any long name answers with all variables whose long name or standard name is the first wanted name that any variable carries, and with nothing exactly when no variable carries any of them. A table of lists of names is searched like the names of all its lists in order.", "quantifier": "all datasets, all lists and tables of names", "why_tests_cant": "order of names against order of variables matters; needs variables sharing names", "anchors": ["gridded/utilities.py:search_dataset_for_any_long_name"]}
{"id": "C181", "title": "Equality of time series", "statement": "Two time series are equal exactly if they mark the same instants with the same offset; equality is reflexive, symmetric and transitive; equal series answer all questions alike and remain equal after the same assignments to both.", "quantifier": "all pairs of time series, all histories of assignments to both", "why_tests_cant": "what is compared must decide about all later behaviour; needs histories of assignments", "anchors": ["gridded/time.py:Time.__eq__", "gridded/time.py:Time.tz_offset", "gridded/time.py:Time.displacement"]}
{"id": "C182", "title": "Coordinates of a mesh, whoever wrote the file", "statement": "A mesh of a file is loaded with the coordinates it names for its nodes, faces, edges and boundaries: longitudes and latitudes, told apart by their standard names or, without, by their units, in whatever order they are named. A mesh that names no coordinates of its nodes, or variables that are not in the file or are neither, is refused.", "quantifier": "all files, all names and orders of variables, meshes of dimension one and two", "why_tests_cant": "files of other programs use other names, orders and attributes than those the tests have", "anchors": ["gridded/pyugrid/read_netcdf.py:load_grid_from_nc_dataset", "gridded/pyugrid/read_netcdf.py:is_valid_mesh"]}
{"id": "C183", "title": "Verdat files written by other programs", "statement": "Loading a verdat file takes each number as the double nearest to what is written, with or without sign, fraction, power of ten and spaces around it; takes as points and depths the rows up to the row of zeros, in order; and closes each loop of the boundary through the points after the loop before, joining no points of different loops, whatever the first line says and whatever follows.", "quantifier": "all texts of numbers, all numbers of points and loops, all sizes of loops, any rounding with relative error below 1", "why_tests_cant": "the ways to write a number are unbounded, and the files of tests were written by save_verdat", "anchors": ["gridded/io/verdat.py:load_verdat"]}
{"id": "C184", "title": "Extrapolation in depth gives the end level's value", "statement": "In floating-point arithmetic, a point extrapolated beyond the level listed first has exactly the value of that level.", "quantifier": "all level depths in increasing or decreasing order, data, numbers of points, depths and boundary conditions", "why_tests_cant": "the error depends on the value of the level at the other end; tests compare with a tolerance or with round numbers", "anchors": ["gridded/depth.py:L_Depth.interpolation_alphas", "gridded/variable.py:Variable._depth_interp"]}
{"id": "C185", "title": "Unmasked results", "statement": "With unmask, no entry of a result is masked: entries that would be masked hold the variable's fill value, the others are as without, and a point off the grid gets the fill value.", "quantifier": "all grids, data, masks, depth objects, times, fill values and lists of points", "why_tests_cant": "the fill value is 0 by default and in the tests, which hides where it comes from", "anchors": ["gridded/variable.py:Variable.at"]}
{"id": "C186", "title": "Rounding in structured cells", "statement": "In floating point, the value interpolated in a cell of a structured grid differs from the exact bilinear value by rounding errors only, whatever the orientation of the cell.", "quantifier": "all cells, node values and points of the cell; every rounding with relative error at most u", "why_tests_cant": "cells that are parallelograms up to rounding take the quadratic branch, where the two terms cancel; test grids have exact corners", "anchors": ["gridded/pysgrid/sgrid.py:SGrid.x_to_l", "gridded/pysgrid/sgrid.py:SGrid.geo_to_logical", "gridded/pysgrid/sgrid.py:SGrid.interpolate_var_to_points"]}
{"id": "C187", "title": "Structured values at the corners in floating point", "statement": "In floating point, a point on a corner of a structured cell gets the value of that node, and no value lies outside the range of the four node values.", "quantifier": "all cells with sides along the axes, node values and points of the cell", "why_tests_cant": "the tests use corners with few digits and compare with a tolerance", "anchors": ["gridded/pysgrid/sgrid.py:SGrid.x_to_l", "gridded/pysgrid/sgrid.py:SGrid.interpolate_var_to_points"]}
{"id": "C188", "title": "A saved mesh names its variables", "statement": "In a saved unstructured grid the mesh variable names exactly the variables of the grid in the file, each in the attribute for it.", "quantifier": "all grids that can be saved", "why_tests_cant": "the tests look for single names; connectivity and boundary coordinates together do not occur", "anchors": ["gridded/pyugrid/ugrid.py:UGrid.save"]}
{"id": "C189", "title": "Interpolation on an unstructured grid follows its mesh", "statement": "interpolate_var_to_points answers as a grid just made with the present nodes and faces would, whatever was asked and assigned before: 0 outside, the value of the face, or a value within the range of the corners.", "quantifier": "all histories of assignments, location, weighting and interpolation, with all flags", "why_tests_cant": "the tests interpolate once per grid and never move its nodes", "anchors": ["gridded/pyugrid/ugrid.py:UGrid.interpolate_var_to_points", "gridded/pyugrid/ugrid.py:UGrid.interpolation_alphas", "gridded/pyugrid/ugrid.py:UGrid._add_memo", "gridded/pyugrid/ugrid.py:UGrid._get_memoed", "gridded/pyugrid/ugrid.py:UGrid.nodes", "gridded/pyugrid/ugrid.py:UGrid.faces"]}
{"id": "C190", "title": "Weights are those of the faces asked for", "statement": "interpolation_alphas with given face numbers returns the weights of the points in these faces, whatever was asked before.", "quantifier": "all histories of queries on one grid, all points and face numbers", "why_tests_cant": "needs two queries for the same points with different face numbers", "anchors": ["gridded/pyugrid/ugrid.py:UGrid.interpolation_alphas", "gridded/pyugrid/ugrid.py:UGrid._add_memo", "gridded/pyugrid/ugrid.py:UGrid._get_memoed"]}
{"id": "C191", "title": "A query asked not to be remembered leaves no trace", "statement": "Locating, weighting or interpolating with _memo=False changes no later answer of the grid.", "quantifier": "all histories on one mesh, with the query put in anywhere", "why_tests_cant": "needs two histories that differ by one query", "anchors": ["gridded/pyugrid/ugrid.py:UGrid.interpolate_var_to_points", "gridded/pyugrid/ugrid.py:UGrid.interpolation_alphas", "gridded/pyugrid/ugrid.py:UGrid.locate_faces"]}
{"id": "C192", "title": "index_of is locate_faces", "statement": "On structured and unstructured grids index_of returns what locate_faces returns.", "quantifier": "all grids and points", "why_tests_cant": "no test calls index_of on an unstructured grid", "anchors": ["gridded/pyugrid/ugrid.py:UGrid.index_of", "gridded/pysgrid/sgrid.py:SGrid.index_of"]}
{"id": "C193", "title": "Data without a location are placed by their size", "statement": "interpolate_var_to_points on an unstructured grid takes data that do not say where they are to be on the nodes, faces or boundaries they fit, on every grid they are used with, and does not alter them.", "quantifier": "all grids, all sizes and kinds of data", "why_tests_cant": "needs data used with two grids", "anchors": ["gridded/pyugrid/ugrid.py:UGrid.interpolate_var_to_points", "gridded/pyugrid/ugrid.py:UGrid.infer_location"]}
{"id": "C194", "title": "Interpolation on a structured grid follows its coordinates", "statement": "interpolate_var_to_points on a structured grid answers as a grid just made with the present coordinates and masks would, whatever was asked and assigned before.", "quantifier": "all histories of assignments, location, logical coordinates and interpolation, with all flags", "why_tests_cant": "the tests never change a grid after using it", "anchors": ["gridded/pysgrid/sgrid.py:SGrid.interpolate_var_to_points", "gridded/pysgrid/sgrid.py:SGrid.locate_faces", "gridded/pysgrid/sgrid.py:SGrid.build_celltree", "gridded/pysgrid/sgrid.py:SGrid._compute_transform_coeffs", "gridded/pysgrid/sgrid.py:SGrid._add_memo", "gridded/pysgrid/sgrid.py:SGrid._get_memoed"]}
{"id": "C195", "title": "Logical coordinates are those in the cells asked for", "statement": "geo_to_logical with given cells returns the logical coordinates of the points in these cells, whatever was asked before.", "quantifier": "all histories of queries on one grid, all points and cells", "why_tests_cant": "needs two queries for the same points with different cells", "anchors": ["gridded/pysgrid/sgrid.py:SGrid.geo_to_logical", "gridded/pysgrid/sgrid.py:SGrid._add_memo", "gridded/pysgrid/sgrid.py:SGrid._get_memoed"]}
{"id": "C196", "title": "A single point on a structured grid yields a single pair", "statement": "locate_faces of a structured grid called with one point returns one pair of indices, not an array, every time it is called.", "quantifier": "all histories of queries on one grid", "why_tests_cant": "the first call behaves differently from one after the same point was located in an array", "anchors": ["gridded/pysgrid/sgrid.py:SGrid.locate_faces", "gridded/pysgrid/sgrid.py:SGrid._get_memoed"]}
{"id": "C197", "title": "Evaluation along the dimensions of the data", "statement": "A variable is evaluated along the dimensions its data have: over time between two neighbouring times, over depth between the levels next to each point, as far as no point picks the level listed last; data over neither are interpolated horizontally only, whatever axes the variable has. Data with a dimension the variable has no axis for give no values.", "quantifier": "all variables on structured and unstructured grids, with and without time, with any depth, all points and times", "why_tests_cant": "needs all combinations of axes and dimensions; the tests use files with both", "anchors": ["gridded/variable.py:Variable.at", "gridded/variable.py:Variable.dimension_ordering", "gridded/variable.py:Variable._time_interp", "gridded/variable.py:Variable._depth_interp", "gridded/variable.py:Variable._xy_interp"]}
{"id": "C198", "title": "Variables in surface-only mode", "statement": "A variable whose depth system is not recognised is evaluated in surface-only mode: at each point it has the value of the level at the surface index.", "quantifier": "all data over depth, all surface indices, points and times", "why_tests_cant": "the tests make the surface-only depth but never evaluate a variable with it", "anchors": ["gridded/variable.py:Variable._depth_interp", "gridded/depth.py:DepthBase.interpolation_alphas", "gridded/depth.py:Depth.surface_only"]}
{"id": "C199", "title": "Depth of variables without time", "statement": "A variable loaded from a file, whose data have levels and no time, has at each point the value between the levels of the depth of the point.", "quantifier": "all data over depth, all depths, points and times", "why_tests_cant": "the test files all have a time dimension", "anchors": ["gridded/variable.py:Variable.from_netCDF", "gridded/variable.py:Variable.dimension_ordering", "gridded/variable.py:Variable._time_interp"]}
{"id": "C200", "title": "Units of a query", "statement": "The values of a query that names units are the values in the units of the variable, converted to the units named.", "quantifier": "all variables and vector variables, units, points, times and options", "why_tests_cant": "no test names units in a query", "anchors": ["gridded/variable.py:Variable.at", "gridded/variable.py:VectorVariable.at"]}
{"id": "C201", "title": "Boundary conditions of a depth object", "statement": "The boundary conditions a depth object was made with are those of every query of the object that names none; conditions named by the query are used instead.", "quantifier": "all level and sigma depths, all conditions, points and times", "why_tests_cant": "the tests name the conditions in every query", "anchors": ["gridded/depth.py:L_Depth.interpolation_alphas", "gridded/depth.py:S_Depth.interpolation_alphas", "gridded/depth.py:DepthBase.__init__", "gridded/depth.py:S_Depth.__init__"]}
{"id": "C202", "title": "Boundary conditions of a variable", "statement": "A query of a variable uses the boundary conditions it names; otherwise those given to the variable; and if there are none, those of its depth object.", "quantifier": "all variables with a depth, all conditions, points, times and options", "why_tests_cant": "needs all combinations of conditions given in three places; the tests give them in one", "anchors": ["gridded/variable.py:Variable._depth_interp", "gridded/variable.py:Variable.__init__", "gridded/depth.py:L_Depth.interpolation_alphas"]}
{"id": "C203", "title": "From a file to a value", "statement": "The grid of a file of triangles with the usual names can be loaded, and a variable with data at its nodes over time has at every point of a triangle of the file the value between the numbers the file gives for the three nodes, weighted by the place in the triangle, at the times around the time asked for.", "quantifier": "all files with the usual names, nodes, triangles stored by rows or columns and counting from zero or one, data, times and points", "why_tests_cant": "needs the whole way from a file to a value for every layout; the tests check the steps on a few files", "anchors": ["gridded/grids.py:Grid_U._find_required_grid_attrs", "gridded/pyugrid/ugrid.py:UGrid.__init__", "gridded/pyugrid/ugrid.py:UGrid.interpolate_var_to_points", "gridded/variable.py:Variable.from_netCDF", "gridded/variable.py:Variable.at"]}
{"id": "C204", "title": "From a file to a value on a structured grid", "statement": "The grid of a file with rows of longitudes and latitudes under the usual names can be loaded, and a variable with data at its nodes over time has at every point of a cell that is not folded the value between the numbers the file gives for its four nodes, weighted by the place in the cell, at the times around the time asked for.", "quantifier": "all files with the usual names, numbers of rows and columns, cells that are not folded, data, times and points", "why_tests_cant": "needs the whole way from a file to a value for every shape of cell; the tests check the steps on a few grids", "anchors": ["gridded/grids.py:Grid_S._find_required_grid_attrs", "gridded/pysgrid/sgrid.py:SGrid.__init__", "gridded/pysgrid/sgrid.py:SGrid.interpolate_var_to_points", "gridded/variable.py:Variable.from_netCDF", "gridded/variable.py:Variable.at"]}
{"id": "C205", "title": "Instants of a file whose time units state an offset", "statement": "The times of an axis loaded from a file, taken in the zone the axis states, are the instants the file means, whatever offset from UTC its units state; the zone has the name of the offset.", "quantifier": "all units with a reference date and an offset below a day, all numbers of times, any rounding with relative error up to 1e-13", "why_tests_cant": "tests check the offset and its name, or the times of files without an offset, but not that times and offset belong together", "anchors": ["gridded/time.py:parse_time_offset", "gridded/time.py:Time.from_netCDF", "gridded/time.py:offset_as_iso_string"]}
{"id": "C206", "title": "Edges of the faces of a flexible mesh", "statement": "In a mesh whose faces have different numbers of nodes, given as a masked face table, the face-edge table names for every side of every face the edge that joins its ends.", "quantifier": "all meshes, numbers of nodes of each face, and orders and directions of the edges", "why_tests_cant": "the test of a masked table leaves out the edge of the side in question, and expects no entry for it", "anchors": ["gridded/pyugrid/ugrid.py:UGrid.build_face_edge_connectivity", "gridded/pyugrid/ugrid.py:UGrid.faces"]}
{"id": "C207", "title": "Neighbours, edges and boundaries of a flexible mesh", "statement": "For a mesh whose faces have different numbers of nodes, given as a masked face table, the neighbours, the edges and the boundaries can be built, and the edges are the sides of the faces.", "quantifier": "all meshes and numbers of nodes of each face", "why_tests_cant": "over all meshes; tests build them only for unmasked tables", "anchors": ["gridded/pyugrid/ugrid.py:UGrid.build_face_face_connectivity", "gridded/pyugrid/ugrid.py:UGrid.build_edges", "gridded/pyugrid/ugrid.py:UGrid.build_boundaries"]}
{"id": "C208", "title": "Level depths that count upwards", "statement": "The levels loaded from a file are the depths below the surface that the file states, the shallowest put at zero, whether its positive attribute says that the values count downwards or upwards.", "quantifier": "all strictly monotone lists of levels in either order, and both directions of counting", "why_tests_cant": "no test has a file whose levels count upwards", "anchors": ["gridded/depth.py:L_Depth.from_netCDF", "gridded/depth.py:L_Depth.interpolation_alphas"]}
{"id": "C209", "title": "Data on the nodes of meshes of quadrilaterals", "statement": "Data on the nodes of a mesh, asked at points that lie in faces, give numbers within the range of the data, whatever the number of nodes of a face and whatever was asked before.", "quantifier": "all meshes with faces of any equal number of nodes, data, points, flags and earlier calls", "why_tests_cant": "tests interpolate on triangles only", "anchors": ["gridded/pyugrid/ugrid.py:UGrid.interpolate_var_to_points", "gridded/pyugrid/ugrid.py:UGrid.interpolation_alphas"]}
{"id": "C210", "title": "A dataset loaded and saved keeps its variables", "statement": "A dataset on an unstructured grid, loaded from a file and saved to another, has in the new file the variables it had in the old one, under the same names and with the same values, and the attributes of the file.", "quantifier": "all files whose data variables state their location and have one value for each element there", "why_tests_cant": "tests save datasets made by hand, whose variables have no long names", "anchors": ["gridded/gridded.py:Dataset.save", "gridded/gridded.py:Dataset._variables_from_netCDF", "gridded/pyugrid/ugrid.py:UGrid._save_variables"]}
{"id": "C211", "title": "Coordinates of a variable loaded and saved", "statement": "When a dataset on an unstructured grid is loaded from a file and saved to another, each variable of the new file names, as its coordinates, the longitudes and latitudes of its part of the grid in the new file.", "quantifier": "all files whose data variables state their location and have one value for each element there, and all attributes", "why_tests_cant": "tests save variables that have no attribute of this name", "anchors": ["gridded/pyugrid/ugrid.py:UGrid._save_variables", "gridded/gridded.py:Dataset._variables_from_netCDF", "gridded/variable.py:Variable.__init__"]}
{"id": "C212", "title": "A flexible mesh saved and loaded", "statement": "A mesh whose faces have different numbers of nodes, given as a masked face table, can be saved and loaded, and then has the same faces with the same nodes.", "quantifier": "all meshes and numbers of nodes of each face", "why_tests_cant": "the tests save tables of triangles without masked entries", "anchors": ["gridded/pyugrid/ugrid.py:UGrid.save", "gridded/pyugrid/read_netcdf.py:load_grid_from_nc_dataset", "gridded/pyugrid/ugrid.py:UGrid.faces"]}
{"id": "C213", "title": "Equality of flexible meshes", "statement": "Two meshes given with masked face tables are equal exactly if they have the same nodes, the same nodes for each face, and the same boundaries.", "quantifier": "all pairs of meshes, and numbers under the masked entries", "why_tests_cant": "the tests compare tables without masked entries; needs the numbers that a masked table hides", "anchors": ["gridded/pyugrid/ugrid.py:UGrid.__eq__", "gridded/pyugrid/ugrid.py:UGrid.faces"]}
{"id": "C214", "title": "Centers of the faces of a flexible mesh", "statement": "The coordinates built for the faces of a mesh given with a masked face table are the averages of the nodes of each face, also after the mesh has been saved and loaded.", "quantifier": "all meshes, numbers of nodes of each face, and numbers under the masked entries", "why_tests_cant": "the tests build them for tables without masked entries", "anchors": ["gridded/pyugrid/ugrid.py:UGrid.build_face_coordinates", "gridded/pyugrid/ugrid.py:UGrid.faces"]}
{"id": "C215", "title": "Points are found in convex faces by the simple method", "statement": "On a mesh of convex faces, locate_faces with the simple method gives for each point a face the point lies in, or -1 if it lies in none.", "quantifier": "all meshes of convex faces with three or more nodes, in either direction, and all points", "why_tests_cant": "the tests use triangles of one direction; the wrong answers are in the other half of a quadrilateral, and anywhere for the other direction", "anchors": ["gridded/pyugrid/ugrid.py:UGrid.locate_faces", "gridded/pyugrid/util.py:point_in_tri"]}
{"id": "C216", "title": "A save that fails changes no file", "statement": "Saving a dataset to a path either writes a complete file with the grid and the variables, or raises and leaves the file at the path as it was; files at other paths are not changed.", "quantifier": "all datasets on any grid, formats, paths, and files there before", "why_tests_cant": "tests save where there is no file, and datasets that can be saved", "anchors": ["gridded/gridded.py:Dataset.save", "gridded/utilities.py:get_writable_dataset", "gridded/pyugrid/ugrid.py:UGrid.save"]}
{"id": "C217", "title": "A vector variable saved is in the file", "statement": "After a vector variable has been saved to a path, the file at the path holds the values of its components; formats other than netcdf3 and netcdf4 raise ValueError.", "quantifier": "all vector variables, formats, paths, and files there before", "why_tests_cant": "no test reads back what was saved", "anchors": ["gridded/variable.py:VectorVariable.save"]}
{"id": "C218", "title": "Flexible meshes in files written by others", "statement": "A file with faces of different numbers of nodes, numbered from 0 or from 1, whether the file states the first number or not, and with any fill value that is no number of a node, is loaded with the faces it describes.", "quantifier": "all meshes, numbers of nodes of each face, first numbers and fill values", "why_tests_cant": "needs nodes that are in no face, and numbers of faces, that the sample files do not have", "anchors": ["gridded/pyugrid/read_netcdf.py:load_grid_from_nc_dataset", "gridded/pyugrid/ugrid.py:UGrid.faces"]}
{"id": "C219", "title": "Tables of unstructured grids in files written by others", "statement": "A table of faces, edges or boundaries in a file, stored by rows or by columns, numbered from 0 or from 1, whether the file states the first number or not, and with a flag for missing entries that is no number of a node, is loaded as the rows it describes, with the flag where an entry is missing.", "quantifier": "all numbers of nodes, widths of tables, tables, first numbers, flags and both orders of storage", "why_tests_cant": "needs square tables and files that do not state the first number; the sample files have many more rows than columns", "anchors": ["gridded/pyugrid/read_netcdf.py:load_grid_from_nc_dataset"]}
