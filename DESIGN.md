# Design

Formal verification of `NOAA-ORR-ERD/gridded` (read from `/repo`, unchanged) in Lean 4.
The property list is `properties.jsonl`; what is proved for each is in `MANIFEST.json`.

## Layout

| Directory | Contents |
|---|---|
| `lean/Verif/Model/` | functions of the program, transcribed branch by branch; every definition cites `/repo` file and lines and says where it simplifies |
| `lean/Verif/Spec/` | small specification vocabulary that does not use the model's helpers |
| `lean/Verif/Lemmas/` | helper lemmas about the model |
| `lean/Verif/Props/` | the property theorems `Cnn_...`, each followed by `example`s showing a concrete non-trivial case meeting its hypotheses |

A theorem with suffix `_partial` proves a weaker statement than the property; the comment above
it says what is missing. A theorem with suffix `_refuted` is a proof that the property as
listed is false of the code, with a concrete witness; the true restricted claim is then the
`_partial` theorem.

## Trusted base

* **Lean 4.33.0's kernel**, and Mathlib as installed. No axioms are added. Every theorem depends
  on at most `propext`, `Classical.choice`, `Quot.sound`.
* **The transcription.** The model was written by reading the Python. Nothing was executed.
* **Python/numpy primitives**, transcribed from their documentation in `Model/Np.lean`:
  `searchsorted`, `digitize`, `sort`, `unique`, slicing, negative indexing, `//` and `%`,
  boolean-mask compression, `OrderedDict` insertion/pop order, masked-array `.mask =` (flat fill).
* **Numbers.** Floating point is modelled as exact arithmetic in an arbitrary ordered field
  (or the reals where a square root or a sine occurs). Claims which only *compare* numbers (index
  bracketing, location in cells, validation) are proved for an arbitrary linear order, so they hold
  for doubles other than NaN as they stand. Claims about weights staying in [0,1] are proved for
  every monotone rounding function, not only for exact arithmetic. Claims about
  values ("reproduces the point", "linear fields are exact") hold in exact arithmetic only,
  and the property text says so. C153-C159 bound the difference: `Model/Rounded.lean` has the
  interpolations with every operation rounded, and `Spec/Binary64.lean` defines rounding to double
  precision (no overflow or underflow), which is proved to be monotone, odd and of relative error
  2⁻⁵³. NaN input is not modelled.
* **Datetimes** are integers (microseconds); range overflow (years 1..9999) is not modelled.
  `timedelta(hours=x)` is an arbitrary function from offsets to microseconds, except in C205, where
  it is computed with rounding. For C205, `netCDF4.num2date` is taken to return times in UTC whatever
  offset the units state, as it is documented, and `dateutil` to find the offset.
* **Integers** are unbounded (int32/int64 overflow not modelled).
* **Hashes.** SHA-1 of the query is modelled as an arbitrary key function; where a theorem needs two
  different queries to have different keys this is an explicit hypothesis.

* **Text files** (C168, C169) are lists of characters with `\n` line ends. Numbers with underscores,
  white space other than ASCII, and partly written files after an exception are not modelled;
  `float()` is the exact decimal followed by an arbitrary rounding.

## Not modelled

netCDF4 file access (a dataset is a table of named variables with attributes), cell_tree2d,
scipy's cKDTree and RegularGridInterpolator (each is a parameter characterised by its documented
contract, stated as a hypothesis), plotting, unit conversion, logging and
warnings, repr/info strings, pickling, threads, example scripts.

## Per property plan

| Property | Model | Proof |
|---|---|---|
| C01 | `Time.__init__` with sort/unique checks on a list | equivalence with `Pairwise <` by induction on the list |
| C02 | `searchsorted` left + `index_of` | characterisation of the count of smaller elements on sorted lists |
| C03 | `index_of`, `valid_time`, `time_in_bounds`, `interp_alpha` as `Except` | case analysis, iff |
| C04 | `interp_alpha` over an ordered field with a rounding parameter | bracket + monotone rounding |
| C05 | state machine of `tz_offset` assignments | invariant (instant list) by induction over the history |
| C06 | state machine with `displacement` and `tz_offset` assignments | invariant by induction over the history |
| C07 | heap of arrays, Times holding references | false: witness; partial: Times built from lists, by frame invariant over all programs |
| C08 | `from_netCDF` decision with the parser as a parameter | case analysis |
| C09 | `offset_as_iso_string` on digits; binary64 rounding for the witness | exact arithmetic theorem; double-rounding witness that it fails; quarter hours exact |
| C10 | `_time_interp` with a slice evaluator as a parameter | bracket + field algebra |
| C11, C12 | `L_Depth.interpolation_alphas` | digitize characterisation on monotone lists, both orders |
| C13, C14 | `S_Depth.interpolation_alphas`, `_apply_boundary_conditions` over lists of columns | same, pointwise over the list |
| C15, C16 | `get_s_depth`, `get_depth_profile` | field algebra and monotonicity over lists |
| C17 | `Depth.from_netCDF` | count of candidates |
| C18 | `_depth_interp` loop with its loop-carried variable | false: witnesses; partial: in-range indices, loop invariant |
| C19 | `at` with memo as a state machine | false: witnesses; partial: fixed options and data, invariant over histories |
| C20 | all caches | size invariant over histories |
| C21 | heap of cached arrays with write flag and mask | false for masks: witness; partial for data writes, invariant over histories |
| C22 | item caches | false after data assignment / key collision; partial: invariant |
| C23, C24 | `locate_faces` state machine with memo and tree | false: witnesses; partial: invariant |
| C25 | `faces` setter | case analysis over lists |
| C26-C29 | builders as folds over faces | loop invariants over the scan; C28 needs the neighbour table unset: witness of a stale table |
| C30 | `build_face_edge_connectivity` with nearest-neighbour contract | nearest at distance 0 |
| C31-C34 | `interpolation_alphas`, `point_in_tri`, `locate_faces`, `interpolate_var_to_points` with an absorbing non-finite value | field algebra; C32 false for clockwise triangles, C33 on a mesh without faces, C34 when the last face has non-finite data or no area: witnesses |
| C35, C42, C56, C57 | decision functions | case analysis; C42 false for unconventional sizes and C56 for attributes that name rectangular grids: witnesses |
| C36 | `save` to and `load` from an abstract dataset | round trip; false for special sizes: witnesses |
| C37, C38 | `order_boundary_segments` | conservation invariant, degree argument |
| C39 | `save_verdat`, `load_verdat` at the level of records | round trip by induction over loops |
| C40, C41 | padding functions | index arithmetic |
| C43, C44 | `build_celltree`, `locate_faces` | compression lemmas over masks; C43 false for masks without land and for node masks alone: witness |
| C45-C49 | `x_to_l`, `interpolate_var_to_points`, `compute_interpolant`, `geo_to_logical` | real algebra; false parts by witness |
| C50 | `processing_2d` | trigonometric identities, list induction |
| C51 | `parse_padding` as a character scanner | parser/printer round trip |
| C52 | `Grid_R.locate_faces` | digitize characterisation |
| C53 | search functions | induction over candidate lists |
| C54 | `_reorganize_spatial_data` on shapes and matrices | case analysis; false for no points: witness |
| C55 | `convert_mask_to_numpy_mask` | induction over the flag table; false for a single flag: witness |
| C58 | `VectorVariable.at`, `_gen_varnames` | list lemmas; false for name choice: witness |
| C59 | `points_in_polys` | case analysis; rotation invariance of xor fold |
| C60 | loaders' start-index logic | case analysis; false in general: witness |
| C61 | `get_efficient_slice` | min/max arithmetic; false for edges: witnesses |
| C62 | `atTime` over depth-first data | false at the first/last time: witness; case analysis inside |
| C63 | `sigmaAlphas` with layer-shaped data | false: witness; bracketing below the top layer centre |
| C64 | `baseFromNetCDF` | false: witness |
| C65 | `zeroTop` | argmin of a monotone list |
| C66 | `determine_variable_slicing`, `all_padding` | false for 'high' padding and without vertical dimensions: witnesses; induction over dimensions |
| C67 | `locate_nearest`, `nearest_var_to_points` | false on first use and for locations not inferred: witnesses; window arithmetic |
| C68 | `face_padding` from declarations | false when axes are declared in the other order: witness |
| C69 | `locate_faces`, `build_celltree` | false: the tree of the first query is kept: witness; proved for agreeing queries |
| C70 | `interpolate_var_to_points` with `alphas` | false: UnboundLocalError for nodes and edges: witness |
| C71 | `x_to_l` | false when rows have constant longitude (0/0): witness; discriminant is the square of the Jacobian otherwise |
| C72 | `Grid_R.interpolate_var_to_points`, `lonlat_to_yx` | scipy's interpolator is a parameter with a symmetry contract; false with one array object for both axes: witness |
| C73 | `Grid_R.infer_location` | case analysis; false for edge shapes: witness |
| C74 | `GridBase._find_required_grid_attrs` | induction over the topology; false for names with capitals: witness |
| C75 | `parse_axes` | the pattern as a deterministic matcher; induction over the text; false for names with digits: witness |
| C76 | `parse_vector_axis` | the two patterns as searches, characterised by positions |
| C77 | `NetCDFDataset.find_node_coordinates` | loop invariant; false for names that contain x or y: witness |
| C78 | `Grid_U._find_required_grid_attrs` | faces as functions of face and corner; false for three faces by rows: witness |
| C79 | `_find_required_grid_attrs` of all grids | loop invariants; false for the node mask of structured grids: witness |
| C80 | `Grid.from_netCDF` | case analysis over the kind; false for combined nodes: witness |
| C81 | `Grid_S._find_required_grid_attrs` | lookups after each assignment; induction over the topology |
| C82 | `VectorVariable.units` | case analysis; false for texts of one repeated letter: witness |
| C83 | `VectorVariable.__init__` | case analysis; false for empty lists: witness |
| C84, C85, C86 | `Dataset.__init__`, `_variables_from_netCDF`, `save` | induction over the file; words by splitting; false for constructor, descriptions and netcdf3: witnesses |
| C87–C90 | setters of `Variable` | invariant over assignments; C88, C89, C90 false: witnesses |
| C91, C92 | `dimension_ordering`, `Variable.from_netCDF` | case analysis; false for missing depth or time: witnesses |
| C93, C94, C96, C97 | `UGrid` setters, deleters and builders | state machine, invariants over histories; false after replacing faces or nodes: witnesses |
| C95 | `build_*_coordinates` | averages over an ordered field; false with padding: witness |
| C98 | `UGrid.__eq__` | characterisation; link to C36 |
| C99 | `find_mesh_names`, `is_valid_mesh` | induction over the file; false for unreadable dimensions: witness |
| C100 | `UMVar` | invariant of the cache; false after additions: witness |
| C101, C102 | attributes, `_save_variables` | induction over attributes; false for caller's dictionary, fill value, mesh, times: witnesses |
| C103 | `find_grid_topology_var` | filter of a list of distinct names |
| C104, C105 | `infer_avg_axes`, `infer_variable_location` | case analysis over declared dimensions; false for extra dimensions, centers, nodes: witnesses |
| C106 | `find_coordinates_by_location` | induction over variables and names; false for ambiguous names and double spaces: witnesses |
| C107 | `get_masks` | first of a filtered list; false for equal sizes: witness |
| C108 | `calculate_bearing`, `calculate_angle_from_true_east` | real numbers, argument of a complex number, comparison with scalar products on the sphere; false for one column: witness |
| C109 | `SGrid.__eq__` | characterisation; false for NaN and edges: witnesses |
| C110, C112 | `SGrid.load_grid` | inversion of the chain of steps, sufficient conditions; false for missing vertical dimensions, centers, clashing names: witnesses |
| C111 | `save_as_netcdf` | the saved file computed in closed form, loaded again step by step; false for edges, locations, missing centers: witnesses |
| C113 | `Variable.at` | the stages composed: a lemma that one depth stage over points equals the pointwise one of C18, then the time stage; false at the last level: witness |
| C114 | `Variable.at` | C113 with C31, C46, C11 and ring identities; false at the last level: witness |
| C115, C116 | `Variable.at` | convexity of every mean in C113; uniqueness of the value in C113 and pointwise alphas; false beyond the last level: witnesses |
| C117 | `Variable.at` | case analysis of the query time against the ends |
| C118 | `Variable.at` | the stages of C113 carried with masks and NaN instead of numbers; false for entries of weight zero: witnesses |
| C119 | `_align_results_to_spatial_data` | arrays as shape and entries as in C54; false for plain lists: witness |
| C120 | `parse_filename_dataset_args`, `get_dataset` | a counter of opened datasets with a log of what each was opened from; false for one file named in two ways: witnesses |
| C121 | `parse_filename_dataset_args` | as C120; refuted |
| C122 | `regrid_variable` | the source is any evaluation function; induction over times and levels; false for masks with times and levels without: witnesses |
| C123 | `regrid_variable`, `_regrid_s_depth` | as C122; refuted for edges, centers and unstructured grids |
| C124 | `Variable.constant` | the nine nodes and C46; false at the poles: witness |
| C125 | `_can_create_from_netCDF`, `Depth.from_netCDF` | the tables of names as data, C53 for the search; false for a standard name: witness |
| C126 | `FVCOM_Depth`, `search_netcdf_vars` | C53; refuted, and the two terms proved equal in general |
| C127 | `S_Depth.from_netCDF` | rows and columns of optional numbers; pointwise from `zipWith`; false for centers inside the nodes: witness |
| C128 | `S_Depth.from_netCDF` | what is given as flags, what is found as options; case analysis; three witnesses |
| C129 | `S_Depth.from_netCDF` | refuted; partial without names |
| C130 | `L_Depth.from_netCDF` | the caller's array returned with the object; refuted |
| C131 | `S_Depth.interpolation_alphas` on FVCOM objects | forms of masks as data; C13 and C16 at the interpolated column; fails without a mask array |
| C132 | `Variable.at` with `FVCOM_Depth`, `ROMS_Depth` | `sigma_exact`: an additive horizontal stage commutes with the column; two witnesses where the column is not linear in the nodes |
| C133 | `Time.from_netCDF`, `locate_time_var_from_var` | file as dimensions and variables; three witnesses |
| C134 | `Time.constant_time` | heap of arrays (C46) with the singleton; invariant over programs |
| C135 | automatic names, `_instance_count` | class attributes with inheritance; counts grow; witness for level depths |
| C136 | `VectorVariable.time` setter | loop with partial effects; two witnesses |
| C137 | `VectorVariable.units` setter | witness for lists |
| C138 | `VectorVariable.from_netCDF` | C92's loading of variables; two witnesses |
| C139 | `get_triangle_faces` | connectivity in both layouts; two witnesses |
| C140 | `gen_grid_lines_U` | sorted insertion without repetitions; edges as pairs of nodes of a triangle |
| C141 | `get_max_extent` | folds of min and max |
| C142 | `fvcom_index_query` | convex combinations bound the longitudes; witness across 0 and 180 |
| C143 | viewer, log | session as a fold of clicks; rows beside selections |
| C144 | viewer, highlights | induction from the last click; witness with two clicks |
| C145 | `plot_ugrid` | witness with three triangles |
| C146 | `plot_sgrid` | segments of lines |
| C147 | whole evaluation | families of runs related point by point (`Lemmas/Family`) |
| C148 | `interpolation_alphas`, whole evaluation | weight of the third corner is zero on the edge |
| C149 | `x_to_l`, `interpolate_var_to_points` | affine edges; refuted by a cell whose rows run north |
| C150 | whole evaluation | weights under exchange of corners; permutations of three |
| C151 | whole evaluation | numerators and denominators scale by the determinant; discriminant by its square |
| C152 | `Time`, whole evaluation | every comparison and difference of times is invariant |
| C153 | `_time_interp` with every operation rounded | witness in doubles; exact when the difference is |
| C154 | `_time_interp` with every operation rounded | relative error of quotient and mix; `rnd64` has error 2⁻⁵³ |
| C155 | `_time_interp` with every operation rounded | witness in doubles; monotone rounding |
| C156 | `L_Depth`, `_depth_interp` with every operation rounded | as C154; the weight at a level is exactly 0 |
| C157 | `interpolation_alphas` of `UGrid` with every operation rounded | error of differences of products, then of quotients and the sum |
| C158 | the same | witness in doubles; numerators coincide with the denominator or cancel |
| C159 | the same | witness in doubles for triangles; differences are zero in time and depth |
| C160 | whole evaluation with every operation rounded | pairs of runs (exact, rounded) through the stages; C154, C156, C157 at each |
| C161 | whole evaluation | sets of values closed under mixing, through the stages |
| C162 | whole evaluation | C161 for the difference of the fields, by C147 |
| C163 | whole evaluation | C161 for the difference of the fields, by C147 |
| C164 | whole evaluation | pairs of runs on data that agree where the spec says they are used, through the stages; refuted for NaN and points in no face |
| C165 | whole evaluation | the same with the levels next to each depth; refuted above the first level |
| C166 | whole evaluation | results as means of slices next to the time, Lipschitz by cases on the order of the two intervals; C163 for slices |
| C167 | whole evaluation | C113 with the same weights in time, Lipschitz over the levels in either order; refuted at the last level |
| C168 | `save_verdat`, `load_verdat` on characters | printing and parsing digits by induction, half-even rounding, lines, then C39's renumbering |
| C169 | `save_verdat`, `load_verdat` on characters | loaded boundaries are consecutive blocks, which chain to themselves; printing a printed number again; refuted without units |
| C170 | `Variable.at` with level depths, both grid kinds | results are weighted means, so stable; the tangent is reproduced as in C114; corners are within a cell size by convexity; refuted at the last level |
| C171 | `Variable.at` with level depths, both grid kinds | the same with a constant for the tangent; refuted at the last level |
| C172 | `Variable.at` with sigma depths, both grid kinds | every result is a weighted mean of corner samples whose depths mix to the asked depth; second-order remainders; refuted for sigma lists differing between nodes |
| C173 | `Variable.at` with sigma depths, both grid kinds | every sample used lies within the cell, the adjacent levels and the time step; refuted at the seafloor itself |
| C174 | `UGrid.__init__`, `UGrid.faces` on shared arrays | state machine over arrays and grids holding references; invariant: faces lie within the nodes of every grid; refuted for arrays counted from one |
| C175 | `UGrid.__init__` | construction succeeds iff the parts fit, and the grid holds those parts; refuted for one coordinate column given alone |
| C176 | `Variable.at` with triangles | pieces of the path are where three affine weights are not negative; induction over the zeros of the weights on the path; values agree where triangles meet (C148) |
| C177 | `SGrid.interpolate_var_to_points` at centers | index shift and trimming agree (C40); pointwise induction over the list of points |
| C178 | keyword arguments as missing, None or given; log of opened datasets | false: witnesses; partial: soundness of every call and condition for being called, case analysis |
| C179, C180 | searches over lists of variables | C179 false for standard names: witness, exact condition; C180 by induction on the names |
| C181 | `Time.__eq__` | false after a displacement: witness; partial: invariant over histories of assignments to both |
| C182 | `load_grid_from_nc_dataset` | inversion of the loading for soundness, uninitialised memory as an arbitrary function; refuted for a mesh that names only longitudes or only latitudes, whose other column is left over memory |
| C183 | `load_verdat` on characters | numbers by cases on their parts, rows and loops by induction; refuted for a loop of one point |
| C184 | `L_Depth`, `_depth_interp` with every operation rounded, whole loop | loop over the groups by induction; refuted by a witness in double precision |
| C185 | `Variable.at` with `unmask` | invariant by position (missing and off the grid implies masked) through the time and depth stages; refuted for unstructured grids |
| C186 | `x_to_l`, `geo_to_logical`, `interpolate_var_to_points` with every operation rounded, one cell | forward error analysis; refuted by a witness in double precision |
| C187 | the same, at the corners | exact evaluation under an idempotent rounding; refuted by a witness |
| C188 | `UGrid.save` | membership in the lists written, part by part; refuted by two witnesses |
| C189 | `interpolate_var_to_points` with both memories, tree and flags | refuted by a witness; invariant: memories agree with the mesh |
| C190 | `interpolation_alphas` with given faces | refuted by a witness; keys of the memory over histories |
| C191 | flags `_copy`, `_memo` as passed on | refuted by a witness; simulation of the histories with and without the query |
| C192 | keywords of `index_of` | evaluation |
| C193 | how the location is settled | refuted by a witness; case analysis |
| C194 | `SGrid` object with tree, coefficients and memories | refuted by a witness; invariant: all kept parts belong to the grid |
| C195 | `geo_to_logical` with given cells | refuted by a witness; keys and contents of the memory over histories |
| C196 | `locate_faces` for one point | refuted by a witness; invariant of the memory |
| C197 | `Variable.at` with axes, order and data of one object | stages composed; values from C113 |
| C198 | `Variable._depth_interp` with `DepthBase` | refuted for every variable with levels |
| C199 | `Variable.from_netCDF` without a time variable | refuted; exact values given |
| C200 | `Variable.at`, `VectorVariable.at` with units | refuted: units not read |
| C201 | constructors of `L_Depth`, `S_Depth`; choice of conditions | refuted for level depths, proved for sigma depths |
| C202 | `Variable._depth_interp`, choice of conditions | refuted for variables without conditions; other combinations proved |
| C203 | steps of `Variable.from_netCDF` and `at` on an unstructured grid together | refuted for three triangles by rows; proved otherwise (`_partial`) |
| C204 | steps of `Variable.from_netCDF` and `at` on a structured grid together | refuted for grids whose first index runs east; proved for grids whose rows go east or west (`_partial`) |
| C205 | units texts through `parse_time_offset`, with `num2date` and `dateutil` as parameters | refuted for units with an offset, which is stated for times already in UTC; proved for units without (`_partial`) and for callers who state UTC |
| C206 | `build_face_edge_connectivity` on rows padded with masked entries | refuted for the last side of short faces, whose entry is masked; proved for the other sides (`_partial`) |
| C207 | builders on rows padded with masked entries; the masked constant cannot be hashed | refuted: they raise for every short face; proved without masked entries (`_partial`) |
| C208 | `L_Depth.from_netCDF` reads the values of the variable and no attribute | refuted for `positive: up`; what happens then is proved for all heights; proved for the other direction (`_partial`) |
| C209 | `interpolation_alphas` unpacks three nodes | refuted for faces that are not triangles, on any grid in any state; proved for triangles (`_partial`) |
| C210 | `Dataset.from_netCDF`, then `Dataset.save` through `UGrid._save_variables` | refuted: long names become names, attributes of the file are lost; proved without long names (`_partial`) |
| C211 | `_save_variables` sets `coordinates`, then all attributes of the variable | refuted for variables that have the attribute; proved for the others (`_partial`), and that attributes are kept |
| C212 | `save` and `load_grid_from_nc_dataset` on masked face tables; default fill value | refuted for three faces; proved otherwise (`_partial`) |
| C213 | `UGrid.__eq__` on masked face tables (`np.array_equal` drops the mask) | refuted in both directions; proved for tables with one hidden number (`_partial`) |
| C214 | `build_face_coordinates` on masked face tables: the index is the plain array | refuted; raises for every mesh loaded from a saved file; proved without masked entries (`_partial`) |
| C215 | `locate_faces(method='simple')` composed with `point_in_tri`, against convex hulls of the nodes of a face | refuted for clockwise faces and for more than three nodes; proved for counterclockwise triangles (`_partial`) |
| C216 | `Dataset.save` with a disk as state: open, then write | refuted: failures lose the file, structured grids always fail; proved for successes, unknown formats and other paths (`_partial`, `_others`) |
| C217 | `VectorVariable.save` on the disk of C216 | refuted: the method does nothing but check the format (`_partial` for other formats) |
| C218 | `load_grid_from_nc_dataset` on masked face tables with any first number and fill value | refuted if the first number is left out and the last node not in use; proved otherwise but for three faces (`_partial`) |
| C219 | `load_grid_from_nc_dataset` on tables of any width, order of storage, first number and flag | refuted for square tables stored by rows, and for an unstated first number; proved otherwise (`_partial`) |

Nothing in the list is judged inexpressible in a model; where part of a property depends on a
library the library's contract is a hypothesis.
