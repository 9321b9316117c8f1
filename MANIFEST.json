{
 "claims": [
  {
   "property": "C01",
   "status": "proved",
   "theorems": [
    "Verif.C01_face_split_completes"
   ],
   "note": "`Update()` returns, and every triangle it asks for is created: the output triangles are all the children of all the input triangles."
  },
  {
   "property": "C02",
   "status": "proved",
   "theorems": [
    "Verif.C02_uniform_times_four"
   ],
   "note": "Without a selection every triangle is replaced by four."
  },
  {
   "property": "C03",
   "status": "proved",
   "theorems": [
    "Verif.C03_selective_children"
   ],
   "note": "With a selection, a selected triangle is replaced by four triangles; another triangle by one more than the number of edges it shares with selected ones; if there is none it is output unchanged."
  },
  {
   "property": "C04",
   "status": "proved",
   "theorems": [
    "Verif.C04_output_valid"
   ],
   "note": "The output is a valid mesh again, and one that any of the filters accepts; an edge that received a point is no edge of the output any more (no T-junctions)."
  },
  {
   "property": "C05",
   "status": "proved",
   "theorems": [
    "Verif.C05_new_points"
   ],
   "note": "The output points are numbered `0 … n + s - 1`, `n` being the number of input points and `s` the number of edges of subdivided triangles. These edges, and only these, have a new point; the ids `n … n + s - 1` are each used by exactly one edge (in both directions), and the new point splits its edge in every triangle of the edge."
  },
  {
   "property": "C06",
   "status": "proved",
   "theorems": [
    "Verif.C06_original_points_kept_iterative",
    "Verif.C06_original_points_kept",
    "Verif.C06_original_points_kept_edge"
   ],
   "note": "C06, any number of levels. Whenever a run of the Linear, ModifiedButterfly or SquareThree cell filter returns, the input points are kept. The mesh need not be valid: all that is asked is that its points are numbered `0 … n-1`. C06 for the edge filters, all three schemes."
  },
  {
   "property": "C07",
   "status": "proved",
   "theorems": [
    "Verif.C07_linear_midpoints_edge",
    "Verif.C07_linear_midpoints"
   ],
   "note": "C07 for the Linear edge filter: the point that it inserts on an edge is its midpoint. The point that the Linear filter inserts on an edge is its midpoint."
  },
  {
   "property": "C08",
   "status": "proved",
   "theorems": [
    "Verif.C08_loop_inner_edge",
    "Verif.C08_loop_boundary_edge"
   ],
   "note": "The point that the Loop filter inserts on an edge between two triangles: 3/8 of the end points and 1/8 of the opposite corners. C08, boundary edges: the midpoint."
  },
  {
   "property": "C09",
   "status": "proved",
   "theorems": [
    "Verif.C09_loop_inner_point",
    "Verif.C09_loop_boundary_point"
   ],
   "note": "After a uniform run of a new Loop filter, a point all of whose `k` edges lie between two triangles has moved to `(1 - kβ)` times itself plus `β` times the sum of its neighbours. C09, boundary points: 3/4 of the point plus 1/8 of each of its two neighbours along the boundary."
  },
  {
   "property": "C10",
   "status": "proved",
   "theorems": [
    "Verif.C10_butterfly_stencil"
   ],
   "note": "The eight-point stencil of the ModifiedButterfly filter."
  },
  {
   "property": "C11",
   "status": "proved",
   "theorems": [
    "Verif.C11_sqrt3_completes"
   ],
   "note": "`Update()` returns and every triangle it asks for is created: the output triangles are those of the √3 split. Without a selection the number of cells is tripled; with one it grows by two per subdivided cell, and there is one new point per entry of the list."
  },
  {
   "property": "C12",
   "status": "proved",
   "theorems": [
    "Verif.C12_sqrt3_centroids"
   ],
   "note": "The `i`-th subdivided cell receives the point `n + i`, at the mean of its corners; if no cell is listed twice, this is the point it is joined to."
  },
  {
   "property": "C13",
   "status": "proved",
   "theorems": [
    "Verif.C13_sqrt3_valid"
   ],
   "note": "The output is a valid mesh again; if no cell is listed twice, it is one that any of the filters accepts."
  },
  {
   "property": "C14",
   "status": "proved",
   "theorems": [
    "Verif.C14_cell_data_inherited",
    "Verif.C14_cell_data_inherited_iterative",
    "Verif.C14_cell_data_inherited_sqrt3"
   ],
   "note": "Every output cell carries the data of the input cell whose triangle it is a child of (or none, if that cell has none); no other id has data. C14, any number of levels: each output cell carries the data of an input cell, and there are no other data. Every output cell carries the data of the input cell it is made from; of two, the one with the smaller id. No other id has data."
  },
  {
   "property": "C15",
   "status": "proved",
   "theorems": [
    "Verif.C15_cell_data_complete",
    "Verif.C15_cell_data_complete_iterative",
    "Verif.C15_cell_data_complete_sqrt3"
   ],
   "note": "If every input cell has data then every output cell has, and there are as many data entries as cells. C15, any number of levels. If every input cell has data then every output cell has, and there are as many data entries as cells."
  },
  {
   "property": "C16",
   "status": "proved",
   "theorems": [
    "Verif.C16_selection_after_run",
    "Verif.C16_selection_after_run_sqrt3"
   ],
   "note": "After a uniform run the selection is empty. After a selective run it lists, without repetition, exactly the output cells made from triangles that were split into four, and it is not empty. After a uniform run the selection is empty. After a selective run it lists, without repetition, exactly the output cells made from a selected cell, and it is not empty."
  },
  {
   "property": "C17",
   "status": "proved",
   "theorems": [
    "Verif.C17_euler_preserved_iterative",
    "Verif.C17_euler_preserved_sqrt3",
    "Verif.C17_euler_preserved",
    "Verif.C17_euler_preserved_edge"
   ],
   "note": "C17, any number of levels (SquareThree: no cell listed twice). SquareThree preserves points - edges + cells, if no cell is listed twice. A face-split cell filter preserves points - edges + cells. C17, edge filters: the same if no edge is listed twice."
  },
  {
   "property": "C18",
   "status": "proved",
   "theorems": [
    "Verif.C18_closed_iterative",
    "Verif.C18_boundary_preserved_sqrt3",
    "Verif.C18_boundary_preserved",
    "Verif.C18_boundary_preserved_edge"
   ],
   "note": "C18, any number of levels: closed exactly if the input is. SquareThree does not change the boundary. The boundary edges of the output are the boundary edges of the input, those that received a point being replaced by their two halves; so the output is closed exactly if the input is. C18, edge filters."
  },
  {
   "property": "C19",
   "status": "partial",
   "theorems": [
    "Verif.C19_affine_linear_sqrt3",
    "Verif.C19_affine_butterfly",
    "Verif.C19_affine_loop_partial",
    "Verif.C19_affine_loop_closed_partial",
    "Verif.C19_affine_loop_refuted",
    "Verif.C19_affine_conditional_partial",
    "Verif.C19_affine_conditional_edge",
    "Verif.C19_similarity_conditional_partial",
    "Verif.C19_similarity_conditional_edge",
    "Verif.C19_affine_edge",
    "Verif.C19_affine_iterative_partial"
   ],
   "note": "Proved for Linear, SquareThree, Butterfly and all edge filters. Loop: proved where the boundary does not touch itself (in particular closed meshes); false at points where several boundary curves meet (weights do not sum to 1), with a concrete mesh."
  },
  {
   "property": "C20",
   "status": "partial",
   "theorems": [
    "Verif.C20_hull_conditional_partial",
    "Verif.C20_hull_conditional_edge",
    "Verif.C20_hull_edge",
    "Verif.C20_hull_linear",
    "Verif.C20_hull_sqrt3",
    "Verif.C20_hull_loop_partial",
    "Verif.C20_hull_loop_refuted",
    "Verif.C20_hull_iterative_partial"
   ],
   "note": "Proved for Linear, SquareThree and the Linear and Loop edge filters. Loop: proved where the boundary does not touch itself; false otherwise, with a concrete mesh. Butterfly has negative weights and is outside the claim."
  },
  {
   "property": "C21",
   "status": "proved",
   "theorems": [
    "Verif.C21_linear_same_surface_conditional",
    "Verif.C21_linear_same_surface_conditional_edge",
    "Verif.C21_linear_same_surface",
    "Verif.C21_linear_edge_same_surface",
    "Verif.C21_linear_same_surface_iterative"
   ],
   "note": "C21, conditional filter with the Linear cell filter, any area function and threshold: when it returns, the surface and its area are those of the input. C21, conditional filter with the Linear edge filter. The Linear filter does not change the surface: the union of the filled output triangles is that of the input triangles, the total area is the same, and every child of a triangle that is subdivided (in a uniform run: every triangle) has a quarter of its area. C21 for the Linear edge filter. C21 for any number of levels and any selection: the surface and its area are those of the input."
  },
  {
   "property": "C22",
   "status": "proved",
   "theorems": [
    "Verif.C22_iterative_is_iterated",
    "Verif.C22_two_levels"
   ],
   "note": "The iterative filter is iterated application of new single-level filters, each given the selection its predecessor holds after its run; 0 levels is 1 level. This holds for all inputs, also when a level fails. C22, two levels written out."
  },
  {
   "property": "C23",
   "status": "proved",
   "theorems": [
    "Verif.C23_iterative_uniform"
   ],
   "note": "A uniform run with `n` levels returns a valid mesh with `4^max(1,n)` cells (SquareThree: `3^max(1,n)`) for each input cell."
  },
  {
   "property": "C24",
   "status": "proved",
   "theorems": [
    "Verif.C24_iterative_selective"
   ],
   "note": "A selective run with `n` levels on any non-empty list of existing cells returns normally, and it is made of `max(1,n)` refinement steps, each on a non-empty list of existing cells that are children of triangles which the step before split into four (SquareThree: which are made from cells selected in the step before)."
  },
  {
   "property": "C25",
   "status": "partial",
   "theorems": [
    "Verif.C25_history_irrelevant",
    "Verif.C25_set_cells",
    "Verif.C25_history_loop_partial",
    "Verif.C25_loop_flag",
    "Verif.C25_history_loop_refuted"
   ],
   "note": "Proved for all pairs of histories for Linear, Butterfly and SquareThree. False for Loop: the flag m_Uniform of the last run is read before it is set; with equal flags the result depends on nothing else."
  },
  {
   "property": "C26",
   "status": "proved",
   "theorems": [
    "Verif.C26_iterative_history"
   ],
   "note": "Whatever was called on the iterative filter before, also runs that failed: the selection and the level count are what the user asked for last, and the output depends only on them and on the input."
  },
  {
   "property": "C27",
   "status": "proved",
   "theorems": [
    "Verif.C27_selection_order"
   ],
   "note": "Two lists with the same cell ids, in any order and with any repetitions, given to the same filter object: the same triangles at the same positions in the same order, the same number of points, and the same positions for the original points. Linear and Loop on all meshes; Butterfly on closed ones."
  },
  {
   "property": "C28",
   "status": "proved",
   "theorems": [
    "Verif.C28_area_exact"
   ],
   "note": "On a mesh of triangles, `Compute` of the area criterion returns exactly the ids of the cells that are larger than the threshold, in increasing order, whatever the list held before."
  },
  {
   "property": "C29",
   "status": "proved",
   "theorems": [
    "Verif.C29_length_exact",
    "Verif.C29_no_edges"
   ],
   "note": "`Compute` of the length criterion returns exactly the edges that are longer than the threshold: a sublist of the edges of the mesh, so that none is listed twice, whatever the list held before. C29: without edge cells `Compute` throws."
  },
  {
   "property": "C30",
   "status": "proved",
   "theorems": [
    "Verif.C30_area_postcondition",
    "Verif.C30_length_postcondition"
   ],
   "note": "C30 for cells: whatever the mesh, the scheme and the history, when `Update()` of the conditional filter returns, its output consists of triangles and none of them is larger than the threshold; the list is left empty. C30 for edges."
  },
  {
   "property": "C31",
   "status": "proved",
   "theorems": [
    "Verif.C31_area_no_op",
    "Verif.C31_length_no_op"
   ],
   "note": "C31 for cells: when no cell is larger than the threshold, `Update()` returns without an iteration, and the output has the points, the triangles and the edges of the input; the inner filter has not been touched. C31 for edges."
  },
  {
   "property": "C32",
   "status": "proved",
   "theorems": [
    "Verif.C32_area_terminates",
    "Verif.C32_area_returns"
   ],
   "note": "With the Linear filter and a positive `MaximumArea` `A`, `Update()` of the conditional filter returns within `n` iterations when `4 ^ n * A` bounds the areas of the input; the output is valid, covers the same surface with the same total area, keeps the points of the input, and none of its triangles is larger than `A`. C32: hence `Update()` returns on every valid mesh, for every positive threshold."
  },
  {
   "property": "C33",
   "status": "proved",
   "theorems": [
    "Verif.C33_length_terminates",
    "Verif.C33_length_returns"
   ],
   "note": "With the Linear edge filter and a positive `MaximumLength` `L`, `Update()` of the conditional filter returns within `n` iterations when `(1 + 2 ^ n) / 2 * L ^ 2` bounds the squares of the edge lengths of the input; the output is valid, covers the same surface with the same total area, keeps the points of the input, and none of its edges is longer than `L`. C33: hence `Update()` returns on every valid mesh, for every positive threshold."
  },
  {
   "property": "C34",
   "status": "partial",
   "theorems": [
    "Verif.C34_negative_area_sqrt3_refuted",
    "Verif.C34_negative_area_refuted",
    "Verif.C34_negative_length_refuted",
    "Verif.C34_zero_area_refuted",
    "Verif.C34_zero_length_refuted"
   ],
   "note": "False: the filter does not reject thresholds it cannot reach. Negative thresholds: for every valid mesh with a cell and every scheme the loop has not ended after any number of iterations (SquareThree: as long as ids suffice); thresholds of zero: the same with the Linear filters on meshes with positive area or length."
  },
  {
   "property": "C35",
   "status": "partial",
   "theorems": [
    "Verif.C35_never_accepted_partial",
    "Verif.C35_area_never_accepted_partial",
    "Verif.C35_uniform_throws_partial",
    "Verif.C35_listed_throws_partial",
    "Verif.C35_unlisted_refuted",
    "Verif.C35_unlisted_hang_refuted",
    "Verif.C35_edge_refuted",
    "Verif.C35_edge_hang_refuted",
    "Verif.C35_area_refuted",
    "Verif.C35_hang_is_endless"
   ],
   "note": "Proved: a run that returns has seen triangles only; uniform runs and listed cells raise the exception. False otherwise: unlisted cells, the edge filters and the area criterion end in an endless loop (continue without ++cellIt) or undefined behaviour, never in the exception."
  },
  {
   "property": "C36",
   "status": "partial",
   "theorems": [
    "Verif.C36_never_accepted_partial",
    "Verif.C36_absent_id_refuted"
   ],
   "note": "Proved: a selective run that returns had existing ids only. False that they are rejected: on every valid mesh an absent id is undefined behaviour for each of the four cell filters."
  },
  {
   "property": "C37",
   "status": "partial",
   "theorems": [
    "Verif.C37_mesh_without_them",
    "Verif.C37_isolated_points_partial",
    "Verif.C37_isolated_points_edge_partial",
    "Verif.C37_loop_refuted",
    "Verif.C37_loop_edge_refuted"
   ],
   "note": "Proved for all filters but Loop, by comparison with the mesh without the isolated points. False for the Loop cell filter (exact condition proved) and the Loop edge filter (every run)."
  },
  {
   "property": "C38",
   "status": "partial",
   "theorems": [
    "Verif.C38_gaps_partial",
    "Verif.C38_gaps_edge_partial",
    "Verif.C38_gaps_or_clash",
    "Verif.C38_clash_edge_refuted",
    "Verif.C38_clash_sqrt3_refuted",
    "Verif.C38_gaps_refuted"
   ],
   "note": "Proved for gaps that the new points do not reach, shown to be all gaps but those where a new point meets an id in use; false for those (proved in general for the Linear edge filter and SquareThree; concrete meshes for the other filters). Missing: Loop for the harmless gaps (the gaps become isolated points, see C37)."
  },
  {
   "property": "C39",
   "status": "proved",
   "theorems": [
    "Verif.C39_edge_filter_completes",
    "Verif.C39_edge_filter_points"
   ],
   "note": "On a valid mesh an edge filter returns; an edge receives a point exactly if it is listed (or the list is empty); a triangle with `k` listed edges is replaced by `k + 1` triangles; the output is a valid mesh and no split edge is left. C39, lists without repeated edges: the `i`-th listed edge receives point `n + i`, there are no other new points, and no point of the output is isolated if none of the input was, so that any filter accepts the output."
  },
  {
   "property": "C40",
   "status": "proved",
   "theorems": [
    "Verif.C40_edge_points_as_cell_filter",
    "Verif.C40_butterfly_edge_stencil"
   ],
   "note": "The Linear and the Loop edge filter put the point of an edge where the cell filter of the same scheme puts it, and (with all three schemes) the original points stay where they are. C40, ModifiedButterfly edge filter: the eight-point stencil of the cell filter."
  },
  {
   "property": "C41",
   "status": "partial",
   "theorems": [
    "Verif.C41_repeated_edges_partial",
    "Verif.C41_repeated_edges_refuted",
    "Verif.C41_repeated_cells_partial",
    "Verif.C41_repeated_cells_refuted"
   ],
   "note": "Proved: repeated entries do not change triangles, positions or original points. False that the output is the same: each repetition adds a point that no triangle uses, on every valid mesh."
  },
  {
   "property": "C42",
   "status": "partial",
   "theorems": [
    "Verif.C42_first_run_smooths_all_refuted",
    "Verif.C42_later_run_partial",
    "Verif.C42_first_run_witness_refuted",
    "Verif.C42_wrong_points_refuted"
   ],
   "note": "False: a first run smooths all points; a later run smooths the points whose ids are ids of selected cells. Proved: exactly which points move after a selective run."
  },
  {
   "property": "C43",
   "status": "partial",
   "theorems": [
    "Verif.C43_null_edges",
    "Verif.C43_only_null_edges",
    "Verif.C43_empty_mesh_partial",
    "Verif.C43_empty_mesh_loop_refuted"
   ],
   "note": "Proved except for Loop on meshes with points and no cells, which is undefined behaviour."
  },
  {
   "property": "C44",
   "status": "proved",
   "theorems": [
    "Verif.C44_edge_history_irrelevant",
    "Verif.C44_set_edges"
   ],
   "note": "Take any two histories of calls on two edge filter objects (with any meshes, runs that failed included) after which they hold the same list of edges; the next run on any mesh has the same outcome, and the list is kept. in particular `SetCellsToBeSubdivided(l)` on an edge filter object with any history is as good as on a new one"
  },
  {
   "property": "C45",
   "status": "proved",
   "theorems": [
    "Verif.C45_closed_rings",
    "Verif.C45_numbering",
    "Verif.C45_numbering_edge",
    "Verif.C45_simple_rings",
    "Verif.C45_iterative",
    "Verif.C45_conditional_area",
    "Verif.C45_conditional_length",
    "Verif.C45_conditional_loop_excluded"
   ],
   "note": "on a closed mesh the cyclic order of the edges around a point is that of the triangles The numbering of the points does not matter: two meshes with the same cells (same ids, corners at the same positions) and whatever other point ids, given to filter objects with the same selection, yield meshes with the same cells again, the same data on them and the same cells recorded for the next run. All four cell filters; for Butterfly the edges have to be linked in the same cyclic order, which on a closed mesh they are (`C45_closed_rings`); for Loop the object has to smooth all points, since it reads cell ids as point ids otherwise (C42). C45 for the edge filters. C45: where the boundary does not touch itself the edges of the two meshes are linked in the same cyclic order (`C45_numbering` and `C45_numbering_edge` need that for Butterfly), whatever library linked them. C45 for the iterative filter: after all its levels the meshes still differ in the numbering only, the points of the input correspond as before, and so does the data - also for Loop, whose objects are made anew for each level. C45 for the conditional filter with a cell filter other than Loop and the area criterion: both runs go on, or both end, with meshes that differ in the numbering only - after however many rounds and whatever the objects did before. C45 for the conditional filter with an edge filter and the length criterion, all three schemes. C45 leaves out the conditional filter with the Loop cell filter, and has to: exchanging the numbers of two points of a square changes what the filter returns. From the second round on the ids of the cells to refine are taken for the ids of the points to smooth (C42)."
  },
  {
   "property": "C46",
   "status": "partial",
   "theorems": [
    "Verif.C46_no_data_partial",
    "Verif.C46_conditional_data_refuted"
   ],
   "note": "False: every run of the conditional filter that returns gives a mesh without cell data. Proved: no data is made up."
  },
  {
   "property": "C47",
   "status": "proved",
   "theorems": [
    "Verif.C47_area_safe",
    "Verif.C47_length_safe"
   ],
   "note": "C47 for cells. On a valid mesh, with the scheme, the area function, the threshold and the history arbitrary, after `n` iterations `Update()` of the conditional filter is either still running or has returned normally: it never throws and never has undefined behaviour. What it returns is a valid mesh with the Euler characteristic of the input, closed iff the input is, and with all points of the input at their places unless the scheme is Loop, and it has no fewer cells. SquareThree uses the largest id as a mark, so that the number of points it may reach has to stay below. C47 for edges; the edge filters keep the points of the input with every scheme."
  },
  {
   "property": "C48",
   "status": "partial",
   "theorems": [
    "Verif.C48_iterative_up_to_date",
    "Verif.C48_edge_up_to_date",
    "Verif.C48_uniform_cell_partial",
    "Verif.C48_cell_set_partial",
    "Verif.C48_cell_add_partial",
    "Verif.C48_cell_again_refuted",
    "Verif.C48_cell_again_other_refuted",
    "Verif.C48_conditional_partial",
    "Verif.C48_maximum_area_refuted",
    "Verif.C48_maximum_area_witness_refuted",
    "Verif.C48_conditional_edge_partial",
    "Verif.C48_maximum_length_refuted",
    "Verif.C48_maximum_length_witness_refuted",
    "Verif.C48_sqrt3_again_refuted"
   ],
   "note": "Proved for the iterative filter, the edge filters, the cell filters without a list, the cell filters but Loop when the list is set (or, starting from no list, filled by AddSubdividedCellId) again before each Update(), and the conditional filter when the criterion is set again (cell filters but Loop; all edge filters). False for a cell filter with a list (the run replaces the list by output ids: the next execution has undefined behaviour or subdivides other cells) and for SetMaximumArea and SetMaximumLength on the criterion (not noticed). The time stamps are those of the ITK pipeline, modelled by contract."
  },
  {
   "property": "C49",
   "status": "proved",
   "theorems": [
    "Verif.C49_shape_only",
    "Verif.C49_shape_only_edge",
    "Verif.C49_shape_only_iterative"
   ],
   "note": "C49, cell filters. Two meshes, valid or not, that differ only in the coordinates of their points: the runs return, throw or have undefined behaviour alike, the outputs differ only in coordinates, and the recorded cells are the same. C49, edge filters. C49, iterative filter with any number of levels."
  },
  {
   "property": "C50",
   "status": "proved",
   "theorems": [
    "Verif.C50_linear_quarters",
    "Verif.C50_linear_shapes",
    "Verif.C50_linear_grid",
    "Verif.C50_linear_mesh_size"
   ],
   "note": "`n` uniform levels of the Linear filter: the output triangles are the input triangles cut at the midpoints of their sides `n` times over, in this order. Each output triangle is an input triangle scaled by `2⁻ⁿ` (turned by half a turn or not) and moved: angles, sense and proportions are those of the input, whatever the number of levels. After `n` uniform levels of the Linear filter each input triangle is covered by its regular grid with `2ⁿ` cells to a side: the output triangles are exactly the cells of these grids, each of them once. If no side of an input triangle is longer than `L`, no side of an output triangle is longer than `L / 2ⁿ`."
  },
  {
   "property": "C51",
   "status": "partial",
   "theorems": [
    "Verif.C51_boundary_alone",
    "Verif.C51_patches_fit",
    "Verif.C51_butterfly_fit_refuted"
   ],
   "note": "The places along a boundary after `n` uniform levels depend on the places along it before, and on nothing else of the mesh: the midpoints are added (Linear), or the B-spline steps made (Loop, if the boundary does not touch itself), `n` times over, or nothing is changed (SquareThree). Two meshes that fit together along a boundary curve (the one runs along it in the one direction, the other in the other) still fit together, point for point, after the same number of uniform levels, each by itself. C51 fails for the ModifiedButterfly filter: the triangle and the cup fit together along their boundary, and after one uniform level there is no curve along which they do."
  },
  {
   "property": "C52",
   "status": "proved",
   "theorems": [
    "Verif.C52_pieces_kept_conditional",
    "Verif.C52_pieces_kept_conditional_edge",
    "Verif.C52_pieces_kept",
    "Verif.C52_pieces_kept_edge",
    "Verif.C52_pieces_kept_iterative"
   ],
   "note": "C52, conditional filter with a cell filter. C52, conditional filter with an edge filter. The output has the connected pieces of the input. C52, edge filters. C52, any number of levels."
  },
  {
   "property": "C53",
   "status": "proved",
   "theorems": [
    "Verif.C53_uniform_level",
    "Verif.C53_uniform_regular",
    "Verif.C53_sqrt3_level",
    "Verif.C53_sqrt3_closed"
   ],
   "note": "C53, one level of a face split: the old points have the valences they had and are on the boundary if they were; the new points are regular. Any number of uniform levels of a face split: the points of the input keep their valences; all other points are regular, so that the points where the mesh is irregular are as many as they were. C53, one uniform level of SquareThree: an old point gains one triangle for each boundary edge that leaves it; the new point of a triangle has six triangles, less one for each boundary edge of the triangle. C53 for SquareThree on closed meshes, any number of uniform levels: old points keep their valences, new points have six triangles."
  },
  {
   "property": "C54",
   "status": "partial",
   "theorems": [
    "Verif.C54_select_all_partial",
    "Verif.C54_select_all_iterative",
    "Verif.C54_select_all_any_order",
    "Verif.C54_loop_refuted"
   ],
   "note": "A run with all cells selected, in their order, makes the same mesh as a uniform run: the same points, cells, data, edges and rings. (Loop: objects whose last run was not selective, see `C54_loop_refuted`.) C54 for the iterative filter, any number of levels, all schemes. C54, cells listed in any order and any number of times. C54 fails for a Loop object whose last run was selective: with all cells selected it smooths the corner, with none selected it does not."
  },
  {
   "property": "C55",
   "status": "proved",
   "theorems": [
    "Verif.C55_cells_as_edges_exact",
    "Verif.C55_cells_as_edges"
   ],
   "note": "C55, lists in the order in which the cell filter meets the edges: the Linear and Butterfly edge filters with the edges of the cells that the cell filter is given make the same mesh. The Linear edge filter (and the Butterfly edge filter, on closed meshes), given the edges of some cells in any order and direction, makes the same triangles at the same places, with the same cell data, as the cell filter given these cells."
  },
  {
   "property": "C56",
   "status": "partial",
   "theorems": [
    "Verif.C56_cell_selection_kept",
    "Verif.C56_cell_again_partial",
    "Verif.C56_loop_again_partial",
    "Verif.C56_loop_again_refuted",
    "Verif.C56_edge_again",
    "Verif.C56_iterative_error",
    "Verif.C56_iterative_again",
    "Verif.C56_conditional_error",
    "Verif.C56_conditional_again_partial",
    "Verif.C56_conditional_edge_again"
   ],
   "note": "Proved: exact conditions for errors of the iterative and conditional filters; lists and levels are kept after an exception; the next run is as without the failed one for all filters but Loop, for Loop if the last run before was of the same kind. False for a Loop object otherwise (stale m_Uniform), with a concrete mesh."
  },
  {
   "property": "C57",
   "status": "proved",
   "theorems": [
    "Verif.C57_far_cells_kept",
    "Verif.C57_far_cells_kept_sqrt3",
    "Verif.C57_far_cells_kept_iterative",
    "Verif.C57_far_cells_kept_sqrt3_iterative",
    "Verif.C57_far_cells_kept_edge",
    "Verif.C57_far_corners_iterative"
   ],
   "note": "C57, one run of a face split by any filter object: exactly the cells without an edge in common with a selected cell are in the output as they are, and their data with them. C57, SquareThree: exactly the unselected cells are in the output as they are. C57, any number of levels of a face split: the refined region does not grow beyond the neighbours of the selected cells. However many levels, exactly the cells without an edge in common with a selected cell are in the output as they are, with their data. C57, any number of levels of SquareThree: exactly the unselected cells are in the output as they are. C57, the edge filters: exactly the cells without a listed edge are in the output as they are, with their data. C57 with C06: except with Loop, the corners of the kept cells are where they were."
  },
  {
   "property": "C58",
   "status": "partial",
   "theorems": [
    "Verif.C58_conditional_loop_refuted",
    "Verif.C58_listing_conditional_partial",
    "Verif.C58_listing_conditional_edge_partial",
    "Verif.C58_listing_partial",
    "Verif.C58_listing_uniform",
    "Verif.C58_listing_sqrt3",
    "Verif.C58_listing_edge_partial",
    "Verif.C58_listing_edge_uniform",
    "Verif.C58_listing_iterative_partial",
    "Verif.C58_first_corner_refuted"
   ],
   "note": "True for uniform subdivision and for SquareThree. For selective face splits it is proved for meshes whose cells with exactly two split edges begin at corresponding corners, and refuted without that condition (SplitTriangleFromTwoEdges draws a diagonal that depends on the first corner). The iterative filter with a selection needs all cells to begin at corresponding corners. The conditional filter needs it too, except with SquareThree; for the conditional Loop cell filter it is refuted even then: the order of the cells matters, because cell ids are taken for point ids."
  },
  {
   "property": "C59",
   "status": "proved",
   "theorems": [
    "Verif.C59_linear_additive",
    "Verif.C59_linear_additive_edge",
    "Verif.C59_linear_additive_iterative",
    "Verif.C59_linear_additive_conditional",
    "Verif.C59_linear_additive_conditional_edge",
    "Verif.C59_linear_volume",
    "Verif.C59_linear_volume_iterative"
   ],
   "note": "The Linear filter keeps the sum of every additive quantity, for every selection. C59 for the Linear edge filter. C59 for any number of levels and any selection. C59, conditional filter with the Linear cell filter, any area function and threshold: when it returns. C59, conditional filter with the Linear edge filter. C59 for the volume that a closed mesh encloses, measured from any point before and from any point after the run. … for any number of levels"
  },
  {
   "property": "C60",
   "status": "proved",
   "theorems": [
    "Verif.C60_length_exact",
    "Verif.C60_area_exact_sqrt3",
    "Verif.C60_area_exact_linear"
   ],
   "note": "C60, edge filters of all schemes with a symmetric length: when the conditional filter returns, exactly the edges of the input that are not too long are edges of the output, exactly the triangles without such an edge are triangles of the output, and the points of the input are where they were. C60, SquareThree with any area function: exactly the triangles of the input that are not too large are triangles of the output. C60, Linear with the triangle area of the code: exactly the triangles of the input that are not too large and that have no edge in common with a triangle that is too large are triangles of the output."
  },
  {
   "property": "C61",
   "status": "proved",
   "theorems": [
    "Verif.C61_linear_normals",
    "Verif.C61_linear_normals_edge",
    "Verif.C61_linear_normals_iterative",
    "Verif.C61_linear_normals_conditional",
    "Verif.C61_linear_normals_conditional_edge"
   ],
   "note": "Every triangle that the Linear filter makes lies in a triangle of the input and has its normal; if the input has no degenerate triangle, the output has none. C61 for the Linear edge filter. C61 for any number of levels and any selection. C61, conditional filter with the Linear cell filter, any area function and threshold: when it returns. C61, conditional filter with the Linear edge filter."
  },
  {
   "property": "C62",
   "status": "proved",
   "theorems": [
    "Verif.C62_butterfly_cubic",
    "Verif.C62_butterfly_cubic_edge",
    "Verif.C62_loop_quadratic_edge",
    "Verif.C62_loop_quadratic_point"
   ],
   "note": "Let the points of the mesh lie on a cubic surface over parameters in which the triangles form parallelograms. Then the point that ModifiedButterfly inserts on an edge lies on the surface too, over the middle of the edge, if the triangles of the stencil exist. C62 for the ModifiedButterfly edge filter. C62 for Loop: if the points lie on a quadratic surface, the point on an edge between two triangles lies over the middle of the edge, beside the surface by a vector that depends only on the sides of the triangles in the parameters. C62 for the points that Loop moves: a point with six triangles around it moves off the quadratic surface by the same vector as the points that are inserted beside it."
  },
  {
   "property": "C63",
   "status": "partial",
   "theorems": [
    "Verif.C63_conditional_loop_refuted",
    "Verif.C63_other_side_partial",
    "Verif.C63_other_side_uniform",
    "Verif.C63_other_side_sqrt3",
    "Verif.C63_other_side_edge_partial",
    "Verif.C63_other_side_iterative_partial",
    "Verif.C63_symmetric_iterative_partial",
    "Verif.C63_mirrored_iterative_partial",
    "Verif.C63_symmetric_conditional_partial",
    "Verif.C63_symmetric_conditional_edge_partial",
    "Verif.C63_other_side_conditional_sqrt3",
    "Verif.C63_mirrored_conditional_sqrt3",
    "Verif.C63_symmetric_linear",
    "Verif.C63_symmetric_linear_edge",
    "Verif.C63_symmetric_sqrt3"
   ],
   "note": "C63 is false of the conditional filter with the Loop cell filter, for objects just made, too: the square below is mapped to itself by a half turn that keeps areas and takes first corners of cells to first corners, but what the filter returns is not symmetric. In the second round the ids of the cells to refine are taken for the ids of the points to smooth (C42), which knows no symmetry. `shadow` is twice the area here. Of two meshes the one has the triangles of the other with the opposite orientation, and two filter objects select the same triangles. Then the outputs are the two sides of one surface again, and the same triangles are selected for the next run. This holds if no cell has exactly two split edges; such cells are cut along a diagonal that depends on the corner at which the cell begins, see `C58_first_corner_refuted`. (Butterfly: closed meshes, see C51. Loop: objects that smooth all points.) C63, uniform subdivision. C63, SquareThree, with and without a selection. C63, edge filters: the lists contain the same edges, in any order and direction. C63 for the iterative filter, any number of levels: SquareThree always; the other schemes if nothing is selected. The filters complete. C63, symmetric surfaces: if an affine map takes the surface to itself, it takes the subdivided surface to itself, and the corners of the input are permuted as before. Any number of levels of any scheme. (Loop: a boundary that does not touch itself, see C19. Butterfly: closed meshes.) C63, mirror symmetric surfaces: the map reverses the orientation of the triangles. C63, the conditional filter with the area criterion: if an affine map takes the surface to itself and keeps areas, then what the filter returns is taken to itself as well, and the corners of the input are permuted as before. SquareThree always; Linear and Butterfly if the map takes the first corners of the cells to first corners, see `C58_first_corner_refuted`. (Butterfly: closed meshes.) C63, the conditional filter with the length criterion: the affine map takes the surface to itself and keeps lengths. C63, the conditional SquareThree filter with the area criterion: a surface and its other side are refined to the two sides of one surface, after the same number of iterations. (`area` is any function that does not depend on the order of the corners.) C63, mirror symmetric surfaces and the conditional SquareThree filter. C63, Linear and a positive maximum area: the filter returns, and what it returns has the symmetry of the input. the same with a positive maximum length C63, SquareThree and a positive maximum area: if the ids suffice, the filter returns, and what it returns has all symmetries of the input, rotations and reflections."
  },
  {
   "property": "C64",
   "status": "proved",
   "theorems": [
    "Verif.C64_positions_cell",
    "Verif.C64_positions_edge",
    "Verif.C64_positions_iterative",
    "Verif.C64_coordinates",
    "Verif.C64_coordinates_edge",
    "Verif.C64_superposition",
    "Verif.C64_superposition_edge"
   ],
   "note": "C64 for the four cell filters, on any mesh, with any selection, on an object with any history, in rounded or exact arithmetic: a map that keeps zero, sums and multiples can be applied before or after the run. If the one run fails, the other fails in the same way. C64 for the three edge filters C64 for any number of levels The coordinates do not mix: each coordinate of the output is what the filter computes from that coordinate alone. `X` is the type of the coordinates with whatever addition and multiplication the machine has. Superposition for any number of levels: give every point of a mesh two positions. If the runs on the two surfaces succeed, the run on any mixture of them succeeds and gives the same mixture of the two results, point by point, with the same cells. (With `a = 1 - t`, `b = t`: subdividing an intermediate stage of a morph is an intermediate stage of the morph of the subdivided surfaces.) Superposition for the edge filters"
  },
  {
   "property": "C65",
   "status": "proved",
   "theorems": [
    "Verif.C65_cell",
    "Verif.C65_edge",
    "Verif.C65_iterative",
    "Verif.C65_original_points",
    "Verif.C65_one_point"
   ],
   "note": "C65 for the four cell filters. `inp'` is the input with points moved; the runs differ in no cell and in no point of the output that belongs to input points around which nothing was moved: one edge far for Loop, two for Butterfly. No law of arithmetic is used, so this also holds, to the last bit, in rounded arithmetic. C65 for the three edge filters: the points of the input stay as they are, and the new point of the `i`-th edge changes only if something within reach of its ends was moved. C65 for any number of levels: every triangle of the output has a triangle of the input (with the same original points as corners) such that moving points that are more than `L` times one edge (Loop; Linear none, Butterfly two, SquareThree one) away from its corners does not move the triangle of the output. C65 for the points of the input, after any number of levels C65, one point: moving the point `w` leaves every point of the input in its place unless it is within reach of `w`."
  },
  {
   "property": "C66",
   "status": "proved",
   "theorems": [
    "Verif.C66_cell",
    "Verif.C66_edge",
    "Verif.C66_iterative"
   ],
   "note": "C66 for the cell filters. The run in machine arithmetic (on `inp`) and the run in exact arithmetic (on the same mesh, with the exact values of the positions) give the same mesh up to positions, and no position differs by more than the bound of one level. For Loop: the boundary does not touch itself, at most `d` triangles meet at a point, and `|cosn| ≤ 1`. C66 for the edge filters, which do not move the points of the input. C66 for any number of levels."
  },
  {
   "property": "C67",
   "status": "proved",
   "theorems": [
    "Verif.C67_one_level",
    "Verif.C67_edges_shrink",
    "Verif.C67_levels_close",
    "Verif.C67_converges"
   ],
   "note": "one uniform level: the longest edge gets shorter by a fixed factor, points of the input move by at most a fixed part of the longest edge, and every point of the output is near a point of the input after `n` levels no edge is longer than `shrink ^ n` times the longest edge of the input The output with more levels against the output with fewer: no point moves by more than a multiple of the longest edge of the coarser one, and every point of the finer one is that near to a point of the coarser one. Every point tends to a limit, and a run with `n` levels is within a multiple of `shrink ^ n` of it. (SquareThree does not move points, so `C67_levels_close` says it all; its number of levels is bounded by the type of the ids.)"
  },
  {
   "property": "C68",
   "status": "proved",
   "theorems": [
    "Verif.C68_fan",
    "Verif.C68_unbounded",
    "Verif.C68_at_most_doubles",
    "Verif.C68_linear_slivers"
   ],
   "note": "A point outside the refined part has, after `n` levels, `2 ^ n` triangles in the place of each triangle whose opposite side belongs to the refined part; its other triangles are kept. so there is no bound for the number of triangles at a point no point can have more: the number at most doubles with each level With Linear these triangles become slivers: after `n` levels one has the corners `v`, `b` and a point whose distance from `b` is that of `c` divided by `2 ^ n`."
  },
  {
   "property": "C69",
   "status": "proved",
   "theorems": [
    "Verif.C69_cell",
    "Verif.C69_edge",
    "Verif.C69_valid",
    "Verif.C69_points_kept",
    "Verif.C69_points_kept_edge",
    "Verif.C69_no_extra_digits",
    "Verif.C69_convert_first",
    "Verif.C69_convert_first_edge",
    "Verif.C69_rounding",
    "Verif.C69_order_matters"
   ],
   "note": "C69: a cell filter with two mesh types gives the output of the filter with one, with every position converted (once); it fails when that one fails, in the same way, and it records the same cells. For any mesh, valid or not, any filter object, and any conversion that maps zero to zero. C69 for the edge filters. C69: on a valid mesh the run returns, and the output is a valid mesh. C69: Butterfly and SquareThree convert the points of the input; the edge filters do as well. C69: a wider output type brings no precision: every position of the output is the conversion of an input position. C69: if the conversion is exact (it keeps sums and multiples), it makes no difference whether the mesh is converted before or after. C69 in machine arithmetic: the error of the output is the error of the run in the input type (C66), plus that of one conversion. If the conversion rounds, the order matters: converting the mesh first gives other positions than a filter with two mesh types, even for SquareThree on a tetrahedron."
  },
  {
   "property": "C70",
   "status": "proved",
   "theorems": [
    "Verif.C70_sqrt3_area_terminates",
    "Verif.C70_sqrt3_area_returns",
    "Verif.C70_area_can_grow"
   ],
   "note": "With SquareThree and a positive `MaximumArea` `A`, `Update()` of the conditional filter returns within `M * N` iterations, when no edge of the input is longer than `L` and `M`, `N` are about `log (L ^ 2 / 2 A)` to the base of 9/4 and 3. The output is valid, none of its triangles is larger than `A`, the points of the input are where they were, and the triangles of the input that were not too large are still there. C70: hence, for every valid mesh and every positive threshold, `Update()` returns unless there are too many points. C70: an iteration may make a triangle that is larger than all triangles before, since SquareThree replaces the edge between two subdivided triangles in any case."
  },
  {
   "property": "C71",
   "status": "partial",
   "theorems": [
    "Verif.C71_sqrt3_vector_area",
    "Verif.C71_sqrt3_vector_area_iterative",
    "Verif.C71_sqrt3_normals",
    "Verif.C71_no_fold_partial",
    "Verif.C71_apart",
    "Verif.C71_no_fold_refuted"
   ],
   "note": "SquareThree keeps the sum of the vector areas: for every selection and every vector product. … for any number of levels C71, triangle by triangle: a triangle of the output is a triangle of the input that was not selected; or it has a third of the vector area of a selected one; or it lies at an edge `a b` between two selected triangles `a b c` and `b a d`, and its vector area is `(2 n(b, c, d) + n(c, a, d)) / 9`. Property C71 at large says that triangles that look to one side go over into triangles that look to this side; it is false (`C71_no_fold_refuted`). It holds where each edge between two selected triangles could be flipped: where the triangle of one end and the two opposite points looks to this side, too. … in particular when no two selected triangles have an edge in common: then the pieces lie in the triangles of the input and have their normals. C71 is false: two triangles of the plane lie side by side and look upwards; SquareThree makes a triangle that looks downwards, so that the output folds over itself."
  },
  {
   "property": "C72",
   "status": "partial",
   "theorems": [
    "Verif.C72_row_of_filters_partial",
    "Verif.C72_list_before_iterative_refuted",
    "Verif.C72_runs_double",
    "Verif.C72_runs_once",
    "Verif.C72_first_update_partial",
    "Verif.C72_new_lists_partial",
    "Verif.C72_new_lists_same_input_partial",
    "Verif.C72_no_iterative",
    "Verif.C72_sqrt3_list_before_iterative_refuted"
   ],
   "note": "Proved for rows of any length made of cell and edge filters on the whole mesh, iterative filters with and without lists and both kinds of conditional filters. Without iterative filters every filter is executed at most once per Update(). False for a cell filter with a list in front of an iterative filter: the iterative filter updates its input again from within its run, and the second execution of the cell filter, asked for by a change of time stamps in between, uses a list of output ids. The first Update() is covered for any settings, with lists of cells and edges, if only the first filter may be iterative; so are all later ones before which a new input mesh and new lists of cells are given (not Loop). Lists of edges are covered for the first Update() only. The time stamps are those of the ITK pipeline, modelled by contract."
  },
  {
   "property": "C73",
   "status": "proved",
   "theorems": [
    "Verif.C73_rim_triangles",
    "Verif.C73_height",
    "Verif.C73_conditional_rim"
   ],
   "note": "Iterative SquareThree, on the whole mesh or on a list of cells. Let `a b c` be a refined triangle whose edge `a b` has no refined triangle on its other side: an edge of the boundary of the mesh, or between a listed cell and one that is not listed. After `n` levels there is a triangle over the same edge `a b`, neither end of which has moved, and its third corner has come down along the median to `3 ^ -n` of the way: the area is divided by `3 ^ n` while a side stays as long as it was. C73: what this means for the triangle: the distance of the third corner from the middle of the opposite side is divided by `3 ^ n`. C73: the conditional filter with SquareThree and the area criterion, which ends by C70, ends with such triangles. At an edge `a b` of the boundary the output has a triangle whose third corner came down `j` times, where `j` is the least number with an area of at most `A`."
  },
  {
   "property": "C74",
   "status": "proved",
   "theorems": [
    "Verif.C74_area_settled",
    "Verif.C74_length_settled"
   ],
   "note": "C74: the mesh that a conditional filter with the area criterion returns is left as it is (ids, positions, cells, edges, rings) by any conditional filter with a maximum area that is not smaller, whatever scheme that filter uses and whatever it has done before; its inner filter is not run. C74 with edge filters and the length criterion."
  },
  {
   "property": "C75",
   "status": "proved",
   "theorems": [
    "Verif.C75_loop_length_terminates",
    "Verif.C75_loop_length_returns"
   ],
   "note": "With the Loop edge filter and a positive `MaximumLength` `L`, `Update()` of the conditional filter returns within `n` iterations when no edge of the input is longer than `(10 / 9) ^ n * L`; the output is valid and inside the convex hull of the input, keeps the points of the input, and none of its edges is longer than `L`. C75: hence `Update()` returns, for every positive threshold."
  },
  {
   "property": "C76",
   "status": "proved",
   "theorems": [
    "Verif.C76_level_cost",
    "Verif.C76_edge_cost",
    "Verif.C76_iterative_cost",
    "Verif.C76_conditional_cost",
    "Verif.C76_conditional_total"
   ],
   "note": "C76, one run of a cell filter with a list: at most six more triangles and three more points for each entry of the list, whatever the rest of the mesh. C76, one run of an edge filter with a list: at most two more triangles for each entry, and a point for each entry that is not null. C76, `n` levels of the iterative filter with a list: at most `4 (4 ^ n - 1)` more triangles and `2 (4 ^ n - 1)` more points for each entry of the list. C76, the conditional filter with the Linear filter and the area criterion: the new points are at most the sum of `4 a / A - 1` over the areas `a` of the input triangles larger than the threshold `A`, and the new triangles at most twice as many. C76, the same in terms of the total area, with the least number of triangles any result can have: the result is within a constant factor of it, apart from the triangles of the input."
  },
  {
   "property": "C77",
   "status": "proved",
   "theorems": [
    "Verif.C77_conditional_loop_excluded",
    "Verif.C77_conditional",
    "Verif.C77_conditional_edge",
    "Verif.C77_conditional_linear",
    "Verif.C77_conditional_linear_edge",
    "Verif.C77_piece",
    "Verif.C77_two_pieces",
    "Verif.C77_two_pieces_edge",
    "Verif.C77_two_pieces_iterative",
    "Verif.C77_spared",
    "Verif.C77_spared_iterative",
    "Verif.C77_spared_edge"
   ],
   "note": "The conditional filter with the Loop cell filter has to be left out of C77: a piece of which nothing is too large comes back as it was if it is alone, and is smoothed if there is a large triangle elsewhere. C77, the conditional filter with the area criterion. The iterations on the mesh and on the pieces need not be equally many: the smaller pieces are done earlier, and what they have become is not touched any more. After any number of iterations the filter has returned for the mesh exactly if it has returned for both pieces, and then the result consists of the results for the pieces. (`area` is any function that does not depend on the corner at which a triangle begins.) C77, the conditional filter with the length criterion. The iterations on the mesh and on the pieces need not be equally many: the smaller pieces are done earlier, and what they have become is not touched any more. After any number of iterations the filter has returned for the mesh exactly if it has returned for both pieces, and then the result consists of the results for the pieces. (`len` is any symmetric function.) C77, the conditional linear filter with a positive bound on the area: it returns for the mesh and for the pieces, and the result consists of the results for the pieces, however long each of them takes. C77, the conditional linear edge filter with a positive bound on the length. `m` is a piece of `m'`: there are other triangles in `m'`, which have no corner in common with those of `m`. Then the run on `m` yields a piece of what the run on `m'` yields, whatever the rest of `m'` is and whatever is selected in it. (Conditions as in C58: the selected triangles of the piece are the same; Butterfly: the piece is closed, Loop: objects that smooth all points; cells begin at corresponding corners, or nothing is selected, or the scheme is SquareThree.) C77, the whole mesh: if `m` consists of `m₁` and `m₂`, then what a run yields on `m` consists of what it yields on `m₁` and on `m₂`, and nothing else. C77, edge filters. C77, the iterative filter: any number of levels. The filters complete. C77, a piece of which no triangle is selected is in the output as it was: the same triangles, the same ids, the same places; and the next run does not touch it either. (Not Loop, which smooths the points of unselected cells or not depending on its history, see C42.) C77, over the levels of the iterative filter. C77, edge filters, Loop included: a piece without a listed edge."
  },
  {
   "property": "C78",
   "status": "partial",
   "theorems": [
    "Verif.C78_butterfly_trap_rounded",
    "Verif.C78_butterfly_trap",
    "Verif.C78_butterfly_trap_space",
    "Verif.C78_butterfly_area_refuted"
   ],
   "note": "C78: a mesh with a trap (ten triangles that the filter reproduces at the same place and in the same size), in machine arithmetic (`Rounded`, C66: operations with small errors, here at most 1/32 for a new point; an area computed up to 1/2). With a threshold of about 67 the filter never returns: in each iteration one triangle is too large. (`none`: the iterations of the model are used up, however many they are.) C78 in exact arithmetic. C78 in space, in any position and of any size: a similarity takes the mesh to where it is, and the threshold is scaled. C78 is false as it is stated: there are a valid mesh in space and a positive area with which the filter never returns."
  },
  {
   "property": "C79",
   "status": "partial",
   "theorems": [
    "Verif.C79_loop_share_partial",
    "Verif.C79_documented_weight_refuted"
   ],
   "note": "C79, what holds: an inner point moves from its place `p` towards the mean of its neighbours, by a share between 15/64 and 39/64 of the way; this is further than the documentation says, by at least 3/16 of the way. C79 is false: in every uniform run of a new Loop filter each inner point which is not the mean of its neighbours already gets another position than the documented one."
  },
  {
   "property": "C80",
   "status": "partial",
   "theorems": [
    "Verif.C80_rim_kept_partial",
    "Verif.C80_rim_kept_edge_partial",
    "Verif.C80_rim_kept_iterative_partial",
    "Verif.C80_rim_kept_conditional_partial",
    "Verif.C80_rim_kept_conditional_edge_partial",
    "Verif.C80_butterfly_refuted"
   ],
   "note": "C80, one run of the Linear, Loop or SquareThree cell filter, with any selection and history: if all points of the boundary curve through `v` lie in the convex set `C`, so they do in the output. Missing: ModifiedButterfly, see `C80_butterfly_refuted`, and for Loop boundaries that touch themselves. C80, one run of the Linear or Loop edge filter. C80, any number of levels. C80, the conditional filter with the Linear, Loop or SquareThree cell filter. C80, the conditional filter with the Linear or Loop edge filter. C80 is false of the ModifiedButterfly filter: the rim of the stool sinks below the floor."
  },
  {
   "property": "C81",
   "status": "partial",
   "theorems": [
    "Verif.C81_flat_partial",
    "Verif.C81_flat_edge",
    "Verif.C81_flat_iterative_partial",
    "Verif.C81_flat_conditional_partial",
    "Verif.C81_flat_conditional_edge",
    "Verif.C81_area_refuted"
   ],
   "note": "C81, one run of a cell filter, with any selection and history: if the points lie in a plane, so do those of the output. For Loop the boundary must not touch itself. C81, one run of an edge filter. C81, any number of levels. C81, the conditional filter with a cell filter, whatever is measured. C81, the conditional filter with an edge filter. C81, the area: the lid has the area 8 and one uniform level of ModifiedButterfly leaves a quarter of it, for the new points of the boundary edges are drawn inwards. With Loop five eighths are left."
  },
  {
   "property": "C82",
   "status": "partial",
   "theorems": [
    "Verif.C82_embedded_partial",
    "Verif.C82_embedded_edge_partial",
    "Verif.C82_embedded_iterative_partial",
    "Verif.C82_embedded_conditional_partial",
    "Verif.C82_embedded_conditional_edge_partial",
    "Verif.C82_embedded_refuted"
   ],
   "note": "C82, one run of the Linear cell filter, with any selection: if the surface does not meet itself, neither does the output. C82, one run of the Linear edge filter. C82, any number of levels. C82, the conditional filter with the Linear cell filter. C82, the conditional filter with the Linear edge filter. C82 is false of the other schemes, already for flat surfaces: after one uniform run of ModifiedButterfly and of SquareThree on the head of an arrow, the point between its wings lies in a new triangle; Loop makes the boot cross itself."
  },
  {
   "property": "C83",
   "status": "partial",
   "theorems": [
    "Verif.C83_butterfly_length_partial",
    "Verif.C83_butterfly_length_returns_partial"
   ],
   "note": "C83 for closed meshes. With the ModifiedButterfly edge filter and a positive `MaximumLength` `L`, `Update()` of the conditional filter returns within `n + 2` iterations when no edge of the input is longer than `(100 / 99) ^ n * (11 / 10 * L)`; the output is valid and closed, keeps the points of the input, and none of its edges is longer than `L`. The edges become shorter in each iteration until none is longer than `11 / 10 * L`. From then on new edges longer than `L` arise between a new point and an opposite corner only; the triangles at such an edge have a short and a very short side, and the next iteration is the last one. What is missing for the full claim are meshes with boundary, where the filter takes points from along the boundary. C83 for closed meshes: hence `Update()` returns, for every positive threshold."
  },
  {
   "property": "C84",
   "status": "proved",
   "theorems": [
    "Verif.C84_cell_criterion",
    "Verif.C84_edge_criterion",
    "Verif.C84_any_test",
    "Verif.C84_any_edge_test",
    "Verif.C84_plain",
    "Verif.C84_giving_up",
    "Verif.C84_must_clear",
    "Verif.C84_times_is_levels",
    "Verif.C84_hull",
    "Verif.C84_surface"
   ],
   "note": "C84 for cells. Whatever a criterion does with its own members, as long as on valid meshes it lists existing cells (with SquareThree none of them twice) or throws: the run never has undefined behaviour, the only exceptions are those that the criterion throws, and what is returned is a valid mesh in which the criterion has just found nothing, with the Euler characteristic of the input, closed iff the input is, with the points of the input at their places unless the scheme is Loop, and with no fewer cells. C84 for edges. C84: choosing cells by any test, and keeping any notes, is allowed. C84: so is choosing edges by any test. C84: with a criterion without members of its own this is the filter of the other properties. C84: a criterion that gives up - some number goes down with each call that lists anything - makes the filter return, with every inner filter and all meshes, after at most that number of iterations. C84: a criterion has to clear the list that it is given. One that only adds to it ends the run normally only if the list was empty (it may hold what an earlier run that ended by an exception has left) and its first call finds nothing; otherwise the run does not end normally with any inner filter. C84: with the criterion \"all cells, `n` times\" the conditional filter is the iterative filter with `n` levels, applied to the copy of the input that it starts with (schemes other than Loop, whose object keeps a flag from run to run, see C54). C84: schemes other than ModifiedButterfly keep the points in the convex hull of the input, whatever the criterion (Loop: meshes with a simple boundary, see C20). C84: with the Linear filters every criterion leaves the surface and its area as they are."
  },
  {
   "property": "C85",
   "status": "proved",
   "theorems": [
    "Verif.C85_exact_size",
    "Verif.C85_smaller_maximum",
    "Verif.C85_equal_depths",
    "Verif.C85_iterations"
   ],
   "note": "The numbers of triangles, boundary edges and points of the result are functions of the areas of the input triangles and of which of them are neighbours: each triangle is quartered until its pieces are small enough, and each side is cut as often as the deeper one of its two triangles asks for. C85, comparing two thresholds: a smaller maximum never gives fewer triangles, boundary edges or points, whatever the two filter objects have done before. C85, when all triangles need the same number `k` of cuts (for example when they all have the same area): the result has `4 ^ k` times as many triangles, as many as `k` levels of the iterative filter give. C85, the running time: `n` iterations are enough exactly if no triangle of the input needs more than `n` cuts."
  },
  {
   "property": "C86",
   "status": "partial",
   "theorems": [
    "Verif.C86_flag_after_run_partial",
    "Verif.C86_flag_after_run_sqrt3_partial",
    "Verif.C86_flag_after_run_edge_partial",
    "Verif.C86_before_run_refuted",
    "Verif.C86_levels_refuted",
    "Verif.C86_levels_on_console_partial",
    "Verif.C86_streams_partial"
   ],
   "note": "C86, cell filters: after an `Update()` of a valid mesh, `Print` tells whether this `Update` subdivided everything, and whether the next one will if the selection is not changed in between. C86, SquareThree: the same. C86, edge filters: the same about the list of edges. C86 fails before the first run and after the selection is changed: whatever cells are selected, `Print` shows what it showed before, so an object can say that it subdivides uniformly and then leave triangles as they are. C86 fails for the iterative filter: the number of levels is not on the stream that `Print` was given, so that filters with different numbers of levels look the same there, and every `Print` writes a line to the console. C86, the number of levels on the console: objects that print the same have been given the same number of levels, hence give the same output for the same selection. C86, the other filters write everything to the stream they are given; of a conditional filter nothing but what the base classes write, so that neither its criterion nor its inner filter shows."
  },
  {
   "property": "C87",
   "status": "proved",
   "theorems": [
    "Verif.C87_shapes",
    "Verif.C87_shapes_edge",
    "Verif.C87_angles",
    "Verif.C87_angles_edge",
    "Verif.C87_sizes",
    "Verif.C87_sizes_edge",
    "Verif.C87_shapes_edge_proportional",
    "Verif.C87_sizes_edge_proportional",
    "Verif.C87_angles_edge_square"
   ],
   "note": "When the area of every input triangle is at least `q` times the square of each of its sides, the same is true of the output with `q ^ 3` instead of `q`, however small the maximum area is. C87, for the edge filter with the length criterion: with `q ^ 5`. C87 in terms of angles: when the sines of the angles of the input are at least `σ`, those of the output are at least `σ ^ 6 / 4`. C87 in terms of angles, for the edge filter with the length criterion. C87, the sizes of the triangles: none is made much smaller than was asked for. If no input triangle is smaller than `a`, every output triangle has at least `q ^ 2` times the smaller one of `A / 4` and `a`; so the number of output triangles is at most proportional to the total area divided by the maximum. C87, the sizes of the triangles, for the edge filter with the length criterion. C87, the edge filter with the length criterion, a bound that is proportional to `q`: the shapes become worse by a fixed factor at most, whatever they are and however small the maximum is. (For thin triangles this is much more than `q ^ 5`.) C87, the sizes, proportional to `q`: the area of an output triangle is at least `q / 2400 * L ^ 2`, unless it is a triangle of the input; so there are at most as many triangles as the total area divided by this makes. C87 in terms of angles, for the edge filter: when the sines of the angles of the input are at least `σ`, those of the output are at least `σ ^ 2 / 600`."
  },
  {
   "property": "C88",
   "status": "proved",
   "theorems": [
    "Verif.C88_no_fans",
    "Verif.C88_no_fans_edge",
    "Verif.C88_well_shaped",
    "Verif.C88_no_fans_edge_proportional"
   ],
   "note": "When the area of every input triangle is at least `q` times the square of each of its sides, the number of triangles at a point of the output is at most `1 / q` times the number at that point in the input, or times 6 if that is more (as for all points that are not in the input), however small the maximum area is. Compare C68. C88, for the edge filter with the length criterion: with `q ^ 2` instead of `q`. When no triangle is thin, `q = 1 / 8`, points have at most 48 triangles, if they had at most six. C88, the edge filter with the length criterion, proportional: the number of triangles at a point of the output is at most `13 / q` times the number at that point in the input, or times 6 if that is more."
  },
  {
   "property": "C89",
   "status": "proved",
   "theorems": [
    "Verif.C89_inner",
    "Verif.C89_rim",
    "Verif.C89_tangents",
    "Verif.C89_inner_near"
   ],
   "note": "A uniform run of the iterative Loop filter with any number of levels: the exact position of an inner point, from its neighbours in the input alone. It goes straight to its limit, and each level leaves the part `loopRate k` of the distance. C89, the boundary: the same with a quarter, and the limit depends on the two neighbours along the boundary only. C89, directions: round an inner point with `k` neighbours, the sums of the neighbours with the weights `cos (2πi/k + φ)` keep their directions over all levels, and get shorter by the same factor. Two of them span the tangent plane. C89, distances: with `n` levels an inner point is within `(25/64) ^ n` times its first distance from the limit."
  },
  {
   "property": "C90",
   "status": "partial",
   "theorems": [
    "Verif.C90_not_read_partial",
    "Verif.C90_point_data_refuted"
   ],
   "note": "C90, what holds: the data at the points has no influence. With other data at its points, or none, a mesh gives the same run of every filter: the same output or the same failure, and the same members afterwards. Missing: that the output has the data of the points it keeps, which is false (`C90_point_data_refuted`). C90 is false: whatever the mesh, the selection and the history, no output of any of the filters has data at any point."
  },
  {
   "property": "C91",
   "status": "partial",
   "theorems": [
    "Verif.C91_branches_partial",
    "Verif.C91_shared_work_partial",
    "Verif.C91_independent_partial",
    "Verif.C91_ways",
    "Verif.C91_shared_list_refuted"
   ],
   "note": "A pipeline that branches in any way: any number of filters read the input mesh, any number of filters read the output of each filter; cell and edge filters on the whole mesh, iterative filters with and without lists, conditional filters. After any calls on any of them, the next `Update()` of any filter gives what the filters on the way to it, with the settings and the input mesh asked for, give by hand: the same mesh, or the same failure. What is missing is what is missing in C72: filters that have been given a list of cells (`C91_shared_list_refuted`) or edges, and `SetMaximumArea` and `SetMaximumLength` on a criterion. Work is not done twice for two readers: `[0]` is read by `[0, 0]` and `[1, 0]`, say; `Update()` of `[0, 0]` has returned, and nothing has been changed since. Then `Update()` of `[1, 0]` does not execute `[0]`, whatever it gives: `[0]` and its output are what they were, with their times. The same for all filters that are on the way to both. The pipeline asks again for no other reason than the times (`hw`). (`_partial`: as in `C91_branches_partial`.) Filters that read the same mesh do not disturb each other: two programs that make the same settings on the way to a filter, and the same changes of the input mesh, get the same from its `Update()`, whatever they do with the other filters and whenever they call `Update()` of any of them. (`_partial`: as in `C91_branches_partial`.) C91, who is who: two ways lead to the same filter if and only if they are equally long and agree in all steps; the filters of different branches are different objects, and a filter has the same address on all ways to it. C91 is false with a list of cells: two filters read the output of a cell filter that has been given a list. If one of them has been updated before, the update of the other, after `Modified()` of the input mesh, has undefined behaviour; if it has not, the update gives a mesh, and so do the filters by hand. The calls that concern the second reader are the same. (The list has been replaced by ids of cells of the output, C16, which the input mesh does not have.)"
  },
  {
   "property": "C92",
   "status": "proved",
   "theorems": [
    "Verif.C92_even_levels",
    "Verif.C92_two_runs",
    "Verif.C92_paths",
    "Verif.C92_parallelogram"
   ],
   "note": "The iterative SquareThree filter without a list, with `2 k` levels, makes `k` ternary splits: in each of them every triangle becomes nine, and every edge between two triangles a path of three edges between the same ends. C92, for two runs of cell filters one after the other. C92, the paths: between the ends of an edge with two triangles there is the path over its two new points, in place of the edge; an edge at the rim stays an edge at the rim, and there are no others between old points. C92, places: where the two triangles at an edge make a parallelogram, its new points cut it into three equal parts."
  },
  {
   "property": "C93",
   "status": "proved",
   "theorems": [
    "Verif.C93_rounded_length_terminates",
    "Verif.C93_floating",
    "Verif.C93_neighbours_never_return"
   ],
   "note": "Midpoints and distances are computed with errors up to `κ`, and `MaximumLength` `L` is at least 50 times as large. If no edge of the input is longer than `(10 / 9) ^ n * (49 / 50) * L`, `Update()` returns within `n` iterations (in a ball that leaves room for `n` errors). The output is valid, keeps the points of the input, and none of its edges is longer than `L` as computed, or than `51 / 50 * L` in fact. C93 for operations with relative error `ε` and absolute error `η` (`Rounded`, C66), and distances with errors up to `κ`. C93, the other side: an edge between two machine positions with none between them, longer than `MaximumLength`. Its computed midpoint is one of its ends, so that one half of it is as long as the whole, and `Update()` never returns. (`none`: the iterations of the model are used up, however many they are.)"
  },
  {
   "property": "C94",
   "status": "proved",
   "theorems": [
    "Verif.C94_rounded_area_terminates",
    "Verif.C94_neighbours_never_return"
   ],
   "note": "Midpoints are computed with errors up to `κ`, areas with errors up to `α`, all points stay at most `R` away from the origin, and `MaximumArea` `A` is at least `3 α + 6 κ R`. If no triangle of the input is larger than `2 ^ n * (A - α)`, `Update()` returns within `n` iterations (in a ball that leaves room for `n` errors). The output is valid, keeps the points of the input, and none of its triangles is larger than `A` as computed, or than `A + α` in fact. C94, the other side: a triangle whose corners are pairwise neighbours (no machine position between them), larger than `MaximumArea`. Wherever the computed midpoints fall, one of its four pieces has the same three corners, and `Update()` never returns."
  },
  {
   "property": "C95",
   "status": "proved",
   "theorems": [
    "Verif.C95_cell",
    "Verif.C95_edge",
    "Verif.C95_iterative",
    "Verif.C95_no_growth",
    "Verif.C95_butterfly_reached",
    "Verif.C95_conditional_jumps"
   ],
   "note": "C95 for the cell filters: two meshes differ only in the positions, and no position by more than `δ`. Then the two outputs differ only in the positions, and no position by more than `δ` (for Butterfly: 3/2 of it). For Loop: the boundary does not touch itself, and `|cosn| ≤ 1`. C95 for the edge filters C95 for any number of levels: no amplification at all for Linear, Loop and SquareThree; at most 3/2 per level for Butterfly. a corollary: Linear, Loop and SquareThree do not amplify, whatever the number of levels The factor 3/2 of Butterfly is reached: every point is moved by 1, and the new point of the first edge by 3/2. The conditional filters promise nothing of the kind: for every threshold and every `δ > 0` there are two meshes that differ by at most `δ` in the positions, and for which the runs of the conditional Linear filter give different connections."
  },
  {
   "property": "C96",
   "status": "proved",
   "theorems": [
    "Verif.C96_parts",
    "Verif.C96_parts_sqrt3",
    "Verif.C96_parts_order",
    "Verif.C96_second_part_kept",
    "Verif.C96_linear",
    "Verif.C96_shape",
    "Verif.C96_sqrt3",
    "Verif.C96_linear_edge",
    "Verif.C96_triangle_between"
   ],
   "note": "C96, Linear, any number of parts: no triangle has edges of two of them. Runs on the parts one after the other are possible and end in exactly the mesh that one run with all of them selected gives. C96, SquareThree, any number of parts: it is enough that no two of them have an edge in common. C96, Linear: the order of the parts does not matter. The same triangles at the same positions in the same order, and as many points; only the ids of the new points may differ. C96, the second part can still be selected: the cells of a part that has no edge in common with the first are cells of the mesh in between. C96, Linear. Two parts such that no triangle has edges of both: refining the one and then, in the result, the other gives exactly the mesh that one run with both selections gives. Nothing is asked of the arithmetic, which may round. C96, all face splits, and also mixed: whichever of the three schemes is used in the two steps and in the single run, points, cells, their ids and data and the edges come out the same; only the positions may differ. C96, SquareThree. Here it is enough that the two parts have no edge in common: a triangle between them is not split. C96, Linear edge filter: two lists such that no triangle has edges of both. C96, the condition is needed. The two parts have no edge in common, but a triangle between them has an edge of each. Done in two steps, its two halves are cut otherwise than in one run: the triangles differ."
  },
  {
   "property": "C97",
   "status": "proved",
   "theorems": [
    "Verif.C97_carried",
    "Verif.C97_no_influence",
    "Verif.C97_two_types",
    "Verif.C97_converted_once"
   ],
   "note": "C97: the filters carry cell data and never look at it. If every value is replaced by what any function `g` makes of it, maybe of another type, then the run does the same with the new values: the output is the old output with `g` applied to its data, a failure is the same failure, and the members of the filter object are the same afterwards. For every mesh, also those that the filters do not accept, every selection and history, every arithmetic, and every conversion of coordinates. For a filter whose output mesh has another type of cell data see `C97_two_types`. C97: cell data has no influence on anything else. Two meshes that agree but for their data (other values, values on other cells, values of another type, or none at all) give outputs that agree but for their data, or the same failure, and leave the same members behind. The conditional filters with the two criteria of this module, too; they stop after the same number of rounds, if they stop. C97: a filter whose output mesh has another type of cell data does what the filter with one type does, and converts the value of each output cell once. It makes no difference whether the data are converted by the filter, in the mesh before, or in the mesh after. For every mesh, valid or not, every selection and history, and every conversion of coordinates that goes with it. C97: what arrives at a cell of the output: the cells are those of the filter with one mesh type, and each carries what it would carry there (C14), converted; a cell without data there has none here."
  },
  {
   "property": "C98",
   "status": "proved",
   "theorems": [
    "Verif.C98_rounded_loop_terminates",
    "Verif.C98_floating",
    "Verif.C98_neighbours_never_return"
   ],
   "note": "New points and distances are computed with errors up to `κ`, and `MaximumLength` `L` is at least 50 times as large. If no edge of the input is longer than `(20 / 19) ^ n * (49 / 50) * L`, `Update()` returns within `n` iterations (in a ball that leaves room for `n` errors). The output is valid, keeps the points of the input, and none of its edges is longer than `L` as computed, or than `51 / 50 * L` in fact. C98 for operations with relative error `ε` and absolute error `η` (`Rounded`, C66), and distances with errors up to `κ`. C98, the other side: a boundary edge between two machine positions with none between them, longer than `MaximumLength`. The Loop filter puts the new point of a boundary edge in the middle, and the computed midpoint is one of the ends, so that one half is as long as the whole, and `Update()` never returns. (`none`: the iterations of the model are used up, however many they are.)"
  },
  {
   "property": "C99",
   "status": "partial",
   "theorems": [
    "Verif.C99_cell_partial",
    "Verif.C99_edge_partial",
    "Verif.C99_iterative_partial",
    "Verif.C99_conditional_area_partial",
    "Verif.C99_conditional_length_partial",
    "Verif.C99_unread",
    "Verif.C99_unread_edge",
    "Verif.C99_touching_refuted"
   ],
   "note": "A cell filter given two meshes that differ in their links only (which edge is stored at a point, the order of the edges around a point), as two mesh libraries or two ways of building the mesh may leave them, produces the same mesh but for the links, with the same points in the same order, the same cells, data, edges and recorded cells - all four filters, with and without selection, and also a Loop object that smooths some points only (C42). Butterfly needs a boundary that does not touch itself. C99 for the edge filters. C99: the iterative filter, over all its levels - the links that one level leaves to the next one do not matter either. C99: the conditional filter with a cell filter and the area criterion - after however many rounds. C99: the conditional filter with an edge filter and the length criterion. C99: Linear and SquareThree do not read the links at all: on every mesh, valid or not, the outcome - failures included - and the filter object afterwards are the same. C99: nor does the Linear edge filter. C99 does not hold for Butterfly without the assumption on the boundary: where three pieces of a mesh hang together at one point, the links decide which of the other pieces the new points of the border are computed from (the rule reads the edge next to a border edge without looking whether there is a triangle between them)."
  },
  {
   "property": "C100",
   "status": "proved",
   "theorems": [
    "Verif.C100_kept",
    "Verif.C100_edge",
    "Verif.C100_sqrt3",
    "Verif.C100_kept_levels",
    "Verif.C100_sqrt3_levels",
    "Verif.C100_loop_inner",
    "Verif.C100_loop_rim",
    "Verif.C100_loop",
    "Verif.C100_loop_levels"
   ],
   "note": "Two meshes from which a uniform run of the Linear or of the ModifiedButterfly filter makes the same points and the same triangles had the same points and the same triangles. C100 for the edge filters, all three schemes. C100 for SquareThree; the output keeps neither the order of the triangles nor their first corners. C100, any number of levels of Linear or ModifiedButterfly. C100, any number of levels of SquareThree. C100: where an inner point was before a uniform run of a new Loop filter, from the output alone: its place there, its neighbours there and their number. C100, the boundary. C100 for Loop, which moves all points, where the boundary does not touch itself. C100, any number of levels of Loop."
  },
  {
   "property": "C101",
   "status": "proved",
   "theorems": [
    "Verif.C101_cell",
    "Verif.C101_edge",
    "Verif.C101_iterative",
    "Verif.C101_conditional_area",
    "Verif.C101_conditional_length",
    "Verif.C101_closed",
    "Verif.C101_closed_levels",
    "Verif.C101_reached"
   ],
   "note": "A run of the ModifiedButterfly cell filter, on any mesh and with any selection, goes beyond the input in no direction by more than a quarter of the extent of the input in that direction. C101 for the edge filter. C101 for several levels: the extent about the same middle grows by a factor of at most 3/2 for each. C101 for the conditional filter with an area, if it returns within `n` iterations. C101 for the conditional filter with a length. C101, a uniform run on a closed mesh: no point is further from the convex hull of the input than a quarter of the longest edge. C101, uniform runs on a closed mesh: however many levels, no point is further from the convex hull of the input than twice its longest edge. The quarter is reached, by both filters: all points between -1 and 1, and one at 3/2 after the run."
  },
  {
   "property": "C102",
   "status": "proved",
   "theorems": [
    "Verif.C102_cell",
    "Verif.C102_edge",
    "Verif.C102_iterative",
    "Verif.C102_sqrt3_excluded"
   ],
   "note": "C102 for the Linear and Butterfly cell filters. The coordinates of the input are on the grid `Λ` and at most `M`; the machine is exact on the grid refined once (Linear) or four times (Butterfly), for sizes up to twice `M` (Linear) or `3/2` times `M` (Butterfly). Then the run in exact arithmetic gives the same mesh as the run on the machine, and it is on the refined grid. C102 for the Linear, Loop and Butterfly edge filters. C102 for any number of levels of Linear or Butterfly: each level refines the grid again. Why SquareThree is excluded: from a triangle with the coordinates 0, 0, 1 it makes a point at a third, which is on no refined grid, so that no number of binary digits suffices."
  },
  {
   "property": "C103",
   "status": "proved",
   "theorems": [
    "Verif.C103_linear",
    "Verif.C103_linear_edge",
    "Verif.C103_linear_levels",
    "Verif.C103_counts",
    "Verif.C103_counts_levels",
    "Verif.C103_sqrt3_excluded"
   ],
   "note": "C103 for the Linear cell filter: the part of the surface with a label is the same set of points after the run as before, for every label, and so for the part without data; and every quantity that adds up over triangles, and may depend on the data, keeps its total. C103 for the Linear edge filter. C103 for any number of levels and any selection. C103, numbers of cells: a uniform run of Linear, Loop or ModifiedButterfly makes four cells with the same data of every cell. C103, numbers of cells over levels. Why SquareThree is excluded: it turns the edge between two labels, and both triangles there get the label of the cell with the smaller id: of two triangles with labels 7 and 9, four with 7 and two with 9."
  },
  {
   "property": "C104",
   "status": "proved",
   "theorems": [
    "Verif.C104_rim",
    "Verif.C104_rim_edge",
    "Verif.C104_rim_levels",
    "Verif.C104_rim_conditional",
    "Verif.C104_rim_conditional_edge",
    "Verif.C104_length"
   ],
   "note": "C104 for the cell filters: the boundary is the same set of points after a run of Linear or SquareThree, with any selection. C104 for the Linear and the Loop edge filters, which both put new points of boundary edges in the middle. C104 for any number of levels and any selection. C104 for the conditional filter with the Linear or the SquareThree cell filter, when it returns. C104 for the conditional filter with the Linear or the Loop edge filter, when it returns. C104, lengths: a boundary curve with `n` edges becomes in `L` uniform levels one with `2 ^ L * n` edges (Linear, Loop; for SquareThree it keeps its edges), which is as long (Linear, SquareThree) or not longer (Loop, if the boundary does not touch itself)."
  },
  {
   "property": "C105",
   "status": "proved",
   "theorems": [
    "Verif.C105_more_cells",
    "Verif.C105_more_levels",
    "Verif.C105_sqrt3_size",
    "Verif.C105_more_sqrt3",
    "Verif.C105_more_edges",
    "Verif.C105_more_butterfly",
    "Verif.C105_repeats_excluded"
   ],
   "note": "C105, one run of a face split, whatever the histories of the two objects. C105, the iterative filter: more cells and at least as many levels. C105, SquareThree: the size of a refinement with distinct cells selected is known before: `s` cells become `3 ^ L * s` in `L` levels, the others stay, and there are `s + 3 s + … + 3 ^ (L - 1) s` new points. C105, the size for SquareThree. C105, the edge filters: listing more edges never gives a smaller mesh, and every point of the smaller run is a point of the larger one, at the same place. Butterfly needs a closed mesh for the latter, since its point of an edge depends on the direction in which the edge is listed otherwise (C51). C105, one run of Butterfly on a closed mesh: no point is lost. without the condition of distinct edges this fails: a list with one edge named three times gives three points, a list with that edge and one more gives two"
  },
  {
   "property": "C106",
   "status": "proved",
   "theorems": [
    "Verif.C106_cell",
    "Verif.C106_edge",
    "Verif.C106_levels",
    "Verif.C106_corners",
    "Verif.C106_linear",
    "Verif.C106_linear_edge",
    "Verif.C106_linear_levels",
    "Verif.C106_sqrt3_excluded",
    "Verif.C106_linear_conditional",
    "Verif.C106_linear_conditional_edge"
   ],
   "note": "C106 for a run of a cell filter that splits triangles: output cells are numbered without gaps; the pieces of one input cell are consecutive, and come before those of any later cell; without a selection the cell with the id `k` is a piece of the input cell at place `k / 4`. C106 for the edge filters: consecutive and in the same order. C106 over any number of levels on any selection; without a selection the cell with the id `k` is a piece of the input cell at place `k / 4 ^ L`, where `L` is the number of levels. C106, the four pieces: without a selection the cells `4 i`, `4 i + 1` and `4 i + 2` are the pieces at the first, second and third corner of the input cell at place `i`, and the cell `4 i + 3` is the one in the middle, which has only new points. C106 for the Linear cell filter: the assigned output cells are exactly the input cell, as sets of points. C106 for the Linear edge filter. C106 for the Linear filter over any number of levels on any selection. Why SquareThree is excluded: of two cells it makes six, but cells 3 to 5 are not the pieces of the second one; at least one of them has the data of the first. C106 for the conditional filter with the Linear cell filter: the pieces of an input cell are consecutive, come before those of any later cell, and are exactly the cell, as sets of points. (The data is lost, see C46.) C106 for the conditional filter with the Linear edge filter."
  }
 ]
}