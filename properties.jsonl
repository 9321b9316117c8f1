{"id": "C01", "title": "Face-split filters complete safely", "statement": "On any valid triangle mesh, Update() of the Linear, Loop and ModifiedButterfly cell filters returns normally, for the uniform mode and for any list of existing cell ids: no exception, no endless loop, no null dereference, and every triangle the filter asks the output mesh to create is created.", "quantifier": "all valid triangle mesh (oriented edge-manifold, no two triangles on the same three points, no closed fan with further triangles at its centre, points numbered 0..n-1)s of any size; all selection lists (any order, repetitions allowed)", "why_tests_cant": "AddFaceTriangle may refuse a face depending on every face added before it; only an invariant over the whole construction excludes it for every mesh", "anchors": ["include/itkTriangleCellSubdivisionQuadEdgeMeshFilter.hxx: GenerateOutputCells, SplitTriangleFrom*", "include/itkLinearTriangleCellSubdivisionQuadEdgeMeshFilter.hxx: AddNewCellPoints", "include/itkLoopTriangleCellSubdivisionQuadEdgeMeshFilter.hxx: AddNewCellPoints", "include/itkModifiedButterflyTriangleCellSubdivisionQuadEdgeMeshFilter.hxx: AddNewCellPoints"]}
{"id": "C02", "title": "Uniform face split multiplies cells by four", "statement": "With an empty selection, Linear, Loop and ModifiedButterfly produce exactly four output cells per input cell.", "quantifier": "all valid triangle meshes", "why_tests_cant": "sizes are unbounded", "anchors": ["include/itkTriangleCellSubdivisionQuadEdgeMeshFilter.hxx: GenerateOutputCells, SplitTriangleFromThreeEdges"]}
{"id": "C03", "title": "Selective face split: number of children per triangle", "statement": "With a non-empty selection, every selected triangle is replaced by exactly four triangles and every other triangle by 1+k triangles, k being the number of its edges it shares with a selected triangle; a triangle that shares no edge with a selected one is output unchanged.", "quantifier": "all valid triangle meshes; all selections of existing cells", "why_tests_cant": "all adjacency patterns between selected and unselected cells", "anchors": ["include/itkTriangleCellSubdivisionQuadEdgeMeshFilter.hxx: GenerateOutputCells, SplitTriangleFromOneEdge, SplitTriangleFromTwoEdges, SplitTriangleFromThreeEdges"]}
{"id": "C04", "title": "Crack-free output: the result is again a valid mesh", "statement": "The output of the Linear, Loop and ModifiedButterfly cell filters is again a valid triangle mesh: consistently oriented, every directed edge in at most one triangle, no two triangles on the same points, no T-junction (an edge that received a point is no longer an edge of any output triangle). So the output can be fed to another filter.", "quantifier": "all valid triangle meshes; all selections", "why_tests_cant": "a global property of an unbounded mesh", "anchors": ["include/itkTriangleCellSubdivisionQuadEdgeMeshFilter.hxx: GenerateOutputCells", "include/itkLinearTriangleCellSubdivisionQuadEdgeMeshFilter.hxx: AddNewCellPoints"]}
{"id": "C05", "title": "New points: one per split edge, consecutive ids", "statement": "The face-split filters keep all input point ids 0..n-1 and create exactly one point for each edge of a subdivided triangle, numbered n, n+1, ...; both triangles at an edge use the same new point.", "quantifier": "all valid triangle meshes; all selections", "why_tests_cant": "the number of shared edges is unbounded", "anchors": ["include/itkLinearTriangleCellSubdivisionQuadEdgeMeshFilter.hxx: AddNewCellPoints", "include/itkLoopTriangleCellSubdivisionQuadEdgeMeshFilter.hxx: AddNewCellPoints", "include/itkModifiedButterflyTriangleCellSubdivisionQuadEdgeMeshFilter.hxx: AddNewCellPoints"]}
{"id": "C06", "title": "Interpolating schemes keep the original points", "statement": "Linear, ModifiedButterfly and SquareThree (and their edge variants) output every input point under its id with unchanged coordinates.", "quantifier": "all meshes with points numbered 0..n-1; all selections", "why_tests_cant": "all inputs", "anchors": ["include/itkTriangleCellSubdivisionQuadEdgeMeshFilter.hxx: GenerateOutputPoints", "include/itkSquareThreeTriangleCellSubdivisionQuadEdgeMeshFilter.hxx: AddNewCellPoints", "include/itkTriangleEdgeCellSubdivisionQuadEdgeMeshFilter.hxx: GenerateOutputPoints"]}
{"id": "C07", "title": "Linear scheme: edge midpoints", "statement": "In the Linear filter the point inserted on an edge is the midpoint of the edge's two end points.", "quantifier": "all valid triangle meshes; all selections; all edges", "why_tests_cant": "all inputs", "anchors": ["include/itkLinearTriangleCellSubdivisionQuadEdgeMeshFilter.hxx: AddNewCellPoints"]}
{"id": "C08", "title": "Loop scheme: edge points", "statement": "In the Loop filter the point inserted on an edge between two triangles is 3/8 of each end point plus 1/8 of each of the two opposite corners; on a boundary edge it is the midpoint.", "quantifier": "all valid triangle meshes; all selections; all edges", "why_tests_cant": "all inputs", "anchors": ["include/itkLoopTriangleCellSubdivisionQuadEdgeMeshFilter.hxx: AddNewCellPoints"]}
{"id": "C09", "title": "Loop scheme: original points are smoothed", "statement": "After a uniform run of a new Loop filter, an interior input point with k neighbours is moved to (1-k*beta) times itself plus beta times the sum of its neighbours, beta=(5/8-(3/8+cos(2*pi/k)/4)^2)/k, and a boundary point to 3/4 of itself plus 1/8 of each of its two boundary neighbours.", "quantifier": "all valid triangle meshes without isolated points", "why_tests_cant": "all valences", "anchors": ["include/itkLoopTriangleCellSubdivisionQuadEdgeMeshFilter.hxx: CopyInputMeshToOutputMeshPoints, SmoothingPoint"]}
{"id": "C10", "title": "Butterfly scheme: eight-point stencil", "statement": "In the ModifiedButterfly filter the point inserted on an edge whose two triangles have neighbours across their other four edges is 1/2 of each end point plus 1/8 of each opposite corner minus 1/16 of each of the four outer corners.", "quantifier": "all valid triangle meshes; all such edges", "why_tests_cant": "all inputs", "anchors": ["include/itkModifiedButterflyTriangleCellSubdivisionQuadEdgeMeshFilter.hxx: AddNewCellPoints", "include/itkModifiedButterflyTriangleEdgeCellSubdivisionQuadEdgeMeshFilter.hxx: AddNewEdgePoints"]}
{"id": "C11", "title": "SquareThree completes safely with 3 cells per subdivided cell", "statement": "On any valid triangle mesh Update() of the SquareThree filter returns normally; with s distinct subdivided cells out of f it outputs 3s+(f-s) cells and, when no cell is listed twice, n+s points; in particular a uniform run triples the number of cells.", "quantifier": "all valid triangle meshes; all selections without repetition", "why_tests_cant": "edge flips couple neighbouring cells; all adjacency patterns", "anchors": ["include/itkSquareThreeTriangleCellSubdivisionQuadEdgeMeshFilter.hxx: AddNewCellPoints, GenerateOutputCells"]}
{"id": "C12", "title": "SquareThree inserts centroids", "statement": "The i-th subdivided cell receives the new point n+i, placed at the mean of its three corners.", "quantifier": "all valid triangle meshes; all selections without repetition", "why_tests_cant": "all inputs", "anchors": ["include/itkSquareThreeTriangleCellSubdivisionQuadEdgeMeshFilter.hxx: AddNewCellPoints"]}
{"id": "C13", "title": "SquareThree output is again a valid mesh", "statement": "The output of the SquareThree filter is again a valid triangle mesh.", "quantifier": "all valid triangle meshes; all selections without repetition", "why_tests_cant": "a global property of an unbounded mesh", "anchors": ["include/itkSquareThreeTriangleCellSubdivisionQuadEdgeMeshFilter.hxx: GenerateOutputCells"]}
{"id": "C14", "title": "Cell data is inherited", "statement": "Every output cell of a cell filter carries the data of an input cell it was made from: for the face-split filters the triangle that contains it, for SquareThree one of the (at most two) triangles it overlaps. No data is written for other ids.", "quantifier": "all valid triangle meshes; all cell data (any subset of the cells may have data); all selections", "why_tests_cant": "all inputs", "anchors": ["include/itkTriangleCellSubdivisionQuadEdgeMeshFilter.hxx: PassCellData, GenerateOutputCells", "include/itkSquareThreeTriangleCellSubdivisionQuadEdgeMeshFilter.hxx: GenerateOutputCells"]}
{"id": "C15", "title": "Cell data stays complete", "statement": "If every input cell has data then every output cell has data and the number of data entries equals the number of output cells.", "quantifier": "all valid triangle meshes with complete cell data; all selections; all cell filters", "why_tests_cant": "the unit test checks it on one sphere", "anchors": ["include/itkTriangleCellSubdivisionQuadEdgeMeshFilter.hxx: PassCellData"]}
{"id": "C16", "title": "Selection after a run", "statement": "After a uniform run GetCellsToBeSubdivided() is empty. After a selective run it holds ids of output cells, without repetition, exactly those made from triangles that were split into four (face-split filters) or from subdivided cells (SquareThree); in particular it is never empty, so that a following level never silently turns uniform.", "quantifier": "all valid triangle meshes; all non-empty selections of existing cells", "why_tests_cant": "all inputs", "anchors": ["include/itkTriangleCellSubdivisionQuadEdgeMeshFilter.hxx: SplitTriangleFromThreeEdges", "include/itkSquareThreeTriangleCellSubdivisionQuadEdgeMeshFilter.hxx: GenerateOutputCells", "include/itkIterativeTriangleCellSubdivisionQuadEdgeMeshFilter.hxx: GenerateData"]}
{"id": "C17", "title": "Euler characteristic (genus) is preserved", "statement": "points - edges + cells of the output equals points - edges + cells of the input (the header promises to 'maintain surface genus').", "quantifier": "all valid triangle meshes; all selections; face-split filters and SquareThree", "why_tests_cant": "counts over unbounded meshes", "anchors": ["include/itkTriangleCellSubdivisionQuadEdgeMeshFilter.hxx: GenerateOutputCells", "include/itkSquareThreeTriangleCellSubdivisionQuadEdgeMeshFilter.hxx: GenerateOutputCells"]}
{"id": "C18", "title": "The boundary is preserved", "statement": "An output edge is a boundary edge exactly if it is an unsplit boundary edge of the input or one half of a split one; closed meshes stay closed.", "quantifier": "all valid triangle meshes; all selections", "why_tests_cant": "all inputs", "anchors": ["include/itkTriangleCellSubdivisionQuadEdgeMeshFilter.hxx: GenerateOutputCells", "include/itkSquareThreeTriangleCellSubdivisionQuadEdgeMeshFilter.hxx: GenerateOutputCells"]}
{"id": "C19", "title": "Affine equivariance", "statement": "Applying an affine map (translation, rotation, scaling, shear) to the input points and running a cell filter gives the same mesh as running the filter and applying the map to the output points.", "quantifier": "all valid triangle meshes; all affine maps; all selections; all four schemes and the edge filters; all numbers of levels; for the conditional filter all maps that keep the order of areas (lengths) and thresholds, e.g. similarities", "why_tests_cant": "all maps and meshes", "anchors": ["include/itkLinearTriangleCellSubdivisionQuadEdgeMeshFilter.hxx: AddNewCellPoints", "include/itkLoopTriangleCellSubdivisionQuadEdgeMeshFilter.hxx: AddNewCellPoints, SmoothingPoint", "include/itkModifiedButterflyTriangleCellSubdivisionQuadEdgeMeshFilter.hxx: AddNewCellPoints", "include/itkSquareThreeTriangleCellSubdivisionQuadEdgeMeshFilter.hxx: AddNewCellPoints"]}
{"id": "C20", "title": "Convex hull / bounding box", "statement": "All output points of Linear, Loop and SquareThree lie in the convex hull of the input points.", "quantifier": "all valid triangle meshes; all selections; cell, edge, iterative and conditional filters", "why_tests_cant": "all valences and coordinates", "anchors": ["include/itkLinearTriangleCellSubdivisionQuadEdgeMeshFilter.hxx: AddNewCellPoints", "include/itkLoopTriangleCellSubdivisionQuadEdgeMeshFilter.hxx: AddNewCellPoints, SmoothingPoint", "include/itkSquareThreeTriangleCellSubdivisionQuadEdgeMeshFilter.hxx: AddNewCellPoints"]}
{"id": "C21", "title": "Linear subdivision does not change the surface", "statement": "The union of the output triangles of the Linear filter is the union of the input triangles, and the total area is the same; in a uniform run every child has a quarter of its parent's area.", "quantifier": "all valid triangle meshes; all selections", "why_tests_cant": "all inputs", "anchors": ["include/itkLinearTriangleCellSubdivisionQuadEdgeMeshFilter.hxx: AddNewCellPoints", "include/itkTriangleCellSubdivisionQuadEdgeMeshFilter.hxx: SplitTriangleFrom*"]}
{"id": "C22", "title": "Iterative filter is iterated application", "statement": "The iterative filter with n levels gives the same mesh as applying n new single-level filters one after the other, each one given the selection its predecessor holds after its run; 0 levels behaves as 1.", "quantifier": "all inputs (valid or not), all level counts, all selections, all four schemes", "why_tests_cant": "all level counts", "anchors": ["include/itkIterativeTriangleCellSubdivisionQuadEdgeMeshFilter.hxx: GenerateData"]}
{"id": "C23", "title": "Iterative uniform counts", "statement": "A uniform run with n levels yields 4^max(1,n) cells per input cell (3^max(1,n) for SquareThree), and the result is a valid mesh.", "quantifier": "all valid triangle meshes; all n", "why_tests_cant": "unbounded n", "anchors": ["include/itkIterativeTriangleCellSubdivisionQuadEdgeMeshFilter.hxx: GenerateData"]}
{"id": "C24", "title": "Iterative selective runs complete safely", "statement": "A selective run with n levels of the iterative filter returns normally for any non-empty list of existing cells, refining at each level only descendants of cells that were split into four before.", "quantifier": "all valid triangle meshes; all selections; all n", "why_tests_cant": "unbounded n", "anchors": ["include/itkIterativeTriangleCellSubdivisionQuadEdgeMeshFilter.hxx: GenerateData", "include/itkTriangleCellSubdivisionQuadEdgeMeshFilter.hxx: SplitTriangleFromThreeEdges"]}
{"id": "C25", "title": "Re-running a filter: no influence of earlier runs", "statement": "The output of Update() depends only on the input mesh and the current selection, not on what the filter object executed before (other inputs, other selections, runs that threw).", "quantifier": "all histories of SetCellsToBeSubdivided/AddSubdividedCellId/Update calls on one filter object; all cell filters", "why_tests_cant": "unbounded histories", "anchors": ["include/itkTriangleCellSubdivisionQuadEdgeMeshFilter.hxx: GenerateOutputPoints", "include/itkLoopTriangleCellSubdivisionQuadEdgeMeshFilter.hxx: CopyInputMeshToOutputMeshPoints"]}
{"id": "C26", "title": "Re-running the iterative filter", "statement": "GenerateData of the iterative filter leaves the user's selection and level count untouched and its output depends only on input, selection and levels.", "quantifier": "all histories of calls", "why_tests_cant": "unbounded histories", "anchors": ["include/itkIterativeTriangleCellSubdivisionQuadEdgeMeshFilter.hxx: GenerateData"]}
{"id": "C27", "title": "Selection order and repetitions are irrelevant (face split)", "statement": "For Linear and Loop, listing cells in another order or several times changes at most the numbering of the new points: the list of output triangles, as coordinate triples, is the same.", "quantifier": "all valid triangle meshes; all selection lists with the same set of ids", "why_tests_cant": "all permutations", "anchors": ["include/itkTriangleCellSubdivisionQuadEdgeMeshFilter.hxx: GenerateOutputPoints", "include/itkLinearTriangleCellSubdivisionQuadEdgeMeshFilter.hxx: AddNewCellPoints", "include/itkLoopTriangleCellSubdivisionQuadEdgeMeshFilter.hxx: AddNewCellPoints"]}
{"id": "C28", "title": "Area criterion is exact", "statement": "CellAreaTriangleCellSubdivisionCriterion::Compute returns exactly the ids of the cells whose area is larger than MaximumArea, in increasing order and without repetition, discarding what the list held before.", "quantifier": "all triangle meshes; all thresholds; all area functions", "why_tests_cant": "all inputs", "anchors": ["include/itkCellAreaTriangleCellSubdivisionCriterion.hxx: Compute"]}
{"id": "C29", "title": "Edge length criterion is exact", "statement": "EdgeLengthTriangleEdgeCellSubdivisionCriterion::Compute returns exactly the edges longer than MaximumLength, one entry per edge.", "quantifier": "all meshes; all thresholds", "why_tests_cant": "all inputs", "anchors": ["include/itkEdgeLengthTriangleEdgeCellSubdivisionCriterion.hxx: Compute"]}
{"id": "C30", "title": "Conditional filter: postcondition", "statement": "Whenever Update() of the conditional filter returns, no cell (edge) of its output exceeds the threshold of the criterion.", "quantifier": "all inputs (valid or not); all schemes; all criteria; all histories", "why_tests_cant": "unbounded number of iterations", "anchors": ["include/itkConditionalSubdivisionQuadEdgeMeshFilter.hxx: GenerateData"]}
{"id": "C31", "title": "Conditional filter: no-op when nothing exceeds the threshold", "statement": "If no cell (edge) of the input exceeds the threshold, the conditional filter returns the input geometry unchanged (same points, same triangles).", "quantifier": "all valid triangle meshes; all criteria", "why_tests_cant": "all inputs", "anchors": ["include/itkConditionalSubdivisionQuadEdgeMeshFilter.hxx: GenerateData"]}
{"id": "C32", "title": "Conditional linear filter with area criterion terminates", "statement": "With the Linear cell filter and a positive MaximumArea, Update() of the conditional filter returns on every valid mesh, after at most about log4(largest area / MaximumArea) iterations, and the output is a valid mesh.", "quantifier": "all valid triangle meshes in Euclidean space of any dimension; all positive thresholds", "why_tests_cant": "termination for all inputs", "anchors": ["include/itkConditionalSubdivisionQuadEdgeMeshFilter.hxx: GenerateData", "include/itkCellAreaTriangleCellSubdivisionCriterion.hxx: Compute", "include/itkLinearTriangleCellSubdivisionQuadEdgeMeshFilter.hxx: AddNewCellPoints"]}
{"id": "C33", "title": "Conditional linear edge filter with length criterion terminates", "statement": "With the Linear edge filter and a positive MaximumLength, Update() of the conditional filter returns on every valid mesh, and the output is a valid mesh.", "quantifier": "all valid triangle meshes in Euclidean space of any dimension; all positive thresholds", "why_tests_cant": "termination for all inputs", "anchors": ["include/itkConditionalSubdivisionQuadEdgeMeshFilter.hxx: GenerateData", "include/itkEdgeLengthTriangleEdgeCellSubdivisionCriterion.hxx: Compute", "include/itkLinearTriangleEdgeCellSubdivisionQuadEdgeMeshFilter.hxx: AddNewEdgePoints"]}
{"id": "C34", "title": "Conditional filter rejects unreachable thresholds", "statement": "A threshold that no subdivision can reach (negative MaximumArea) is reported instead of looping forever.", "quantifier": "all non-empty valid meshes; all negative thresholds", "why_tests_cant": "non-termination cannot be observed by a test", "anchors": ["include/itkConditionalSubdivisionQuadEdgeMeshFilter.hxx: GenerateData"]}
{"id": "C35", "title": "Non-triangular cells are rejected", "statement": "A mesh that contains a cell that is not a triangle is rejected with an exception by every filter and criterion.", "quantifier": "all meshes with at least one non-triangle; all selections; all cell filters, edge filters and the area criterion", "why_tests_cant": "non-termination cannot be observed by a test", "anchors": ["include/itkTriangleCellSubdivisionQuadEdgeMeshFilter.hxx: GenerateOutputCells (continue without ++cellIt)", "include/itkSquareThreeTriangleCellSubdivisionQuadEdgeMeshFilter.hxx: GenerateOutputCells", "include/itkCellAreaTriangleCellSubdivisionCriterion.hxx: Compute"]}
{"id": "C36", "title": "Selected ids that do not exist are rejected", "statement": "A selection that contains an id of no input cell is rejected or ignored.", "quantifier": "all meshes; all selections with an absent id", "why_tests_cant": "undefined behaviour need not show in a test", "anchors": ["include/itkTriangleCellSubdivisionQuadEdgeMeshFilter.hxx: GenerateOutputPoints"]}
{"id": "C37", "title": "Isolated points are tolerated", "statement": "A mesh with points that belong to no cell is subdivided like the mesh without them, and the isolated points are kept.", "quantifier": "all otherwise valid meshes with isolated points; all filters", "why_tests_cant": "undefined behaviour need not show in a test", "anchors": ["include/itkLoopTriangleCellSubdivisionQuadEdgeMeshFilter.hxx: SmoothingPoint", "include/itkLoopTriangleEdgeCellSubdivisionQuadEdgeMeshFilter.hxx: CopyInputMeshToOutputMeshPoints"]}
{"id": "C38", "title": "Point ids need not be consecutive", "statement": "Meshes whose point ids have gaps (after deletions) are subdivided correctly: no input point is overwritten.", "quantifier": "all triangle meshes with arbitrary point ids", "why_tests_cant": "all id patterns", "anchors": ["include/itkTriangleCellSubdivisionQuadEdgeMeshFilter.hxx: GenerateOutputPoints", "include/itkLinearTriangleCellSubdivisionQuadEdgeMeshFilter.hxx: AddNewCellPoints"]}
{"id": "C39", "title": "Edge filters complete safely and split exactly the listed edges", "statement": "On any valid triangle mesh the Linear, Loop and ModifiedButterfly edge filters return normally for an empty list (all edges are split) and for any list of edges of the input; a triangle with k listed edges is replaced by k+1 triangles, the output is again a valid mesh, and an edge receives a point exactly if it is listed.", "quantifier": "all valid triangle meshes; all lists of edges without repeated edges", "why_tests_cant": "all adjacency patterns", "anchors": ["include/itkTriangleEdgeCellSubdivisionQuadEdgeMeshFilter.hxx: GenerateOutputPoints", "include/itkLinearTriangleEdgeCellSubdivisionQuadEdgeMeshFilter.hxx: AddNewEdgePoints", "include/itkLoopTriangleEdgeCellSubdivisionQuadEdgeMeshFilter.hxx: AddNewEdgePoints", "include/itkModifiedButterflyTriangleEdgeCellSubdivisionQuadEdgeMeshFilter.hxx: AddNewEdgePoints"]}
{"id": "C40", "title": "Edge filters: edge points and original points", "statement": "The edge filters use the same edge points as the cell filters of the same scheme, and keep all original points; in particular the Loop edge filter never moves an original point.", "quantifier": "all valid triangle meshes; all lists of edges", "why_tests_cant": "all inputs", "anchors": ["include/itkLinearTriangleEdgeCellSubdivisionQuadEdgeMeshFilter.hxx: AddNewEdgePoints", "include/itkLoopTriangleEdgeCellSubdivisionQuadEdgeMeshFilter.hxx: CopyInputMeshToOutputMeshPoints", "include/itkModifiedButterflyTriangleEdgeCellSubdivisionQuadEdgeMeshFilter.hxx: AddNewEdgePoints"]}
{"id": "C41", "title": "Repeated entries in an edge or SquareThree selection are harmless", "statement": "Listing an edge twice (or in both directions) in an edge filter, or a cell twice in SquareThree, does not change the output.", "quantifier": "all valid triangle meshes; all lists", "why_tests_cant": "all inputs", "anchors": ["include/itkLinearTriangleEdgeCellSubdivisionQuadEdgeMeshFilter.hxx: AddNewEdgePoints", "include/itkSquareThreeTriangleCellSubdivisionQuadEdgeMeshFilter.hxx: AddNewCellPoints"]}
{"id": "C42", "title": "Selective Loop subdivision moves only points of selected cells", "statement": "In a selective Loop run only the points of selected cells are smoothed; other original points are kept.", "quantifier": "all valid triangle meshes; all selections", "why_tests_cant": "all inputs", "anchors": ["include/itkLoopTriangleCellSubdivisionQuadEdgeMeshFilter.hxx: CopyInputMeshToOutputMeshPoints (smoothedPointSet.insert(*it))", "include/itkTriangleCellSubdivisionQuadEdgeMeshFilter.hxx: GenerateOutputPoints (m_Uniform set after the copy)"]}
{"id": "C43", "title": "Null entries and empty meshes", "statement": "A mesh without cells is output as its points (no cells, no exception) by every cell filter, null entries of an edge selection are ignored.", "quantifier": "all meshes without cells; all selections of null edges", "why_tests_cant": "all inputs", "anchors": ["include/itkTriangleCellSubdivisionQuadEdgeMeshFilter.hxx: GenerateOutputPoints", "include/itkTriangleEdgeCellSubdivisionQuadEdgeMeshFilter.hxx: GenerateOutputPoints"]}
{"id": "C44", "title": "Edge filters: earlier runs leave nothing behind", "statement": "The outcome of a run of an edge filter depends on the input mesh and on the list of edges the object holds, and on nothing else: not on earlier runs (successful or failed) nor on earlier lists.", "quantifier": "all meshes (valid or not); all pairs of call histories that end with the same list", "why_tests_cant": "all histories", "anchors": ["include/itkTriangleEdgeCellSubdivisionQuadEdgeMeshFilter.hxx: GenerateOutputPoints", "include/itkTriangleCellSubdivisionQuadEdgeMeshFilter.hxx: GenerateOutputCells", "include/itkLoopTriangleEdgeCellSubdivisionQuadEdgeMeshFilter.hxx: CopyInputMeshToOutputMeshPoints"]}
{"id": "C45", "title": "The numbering of the points does not matter", "statement": "Two meshes with the same cells at the same places, but other point ids, are subdivided into meshes with the same cells at the same places, with the same cell data and the same cells recorded for the next run; the new points get the same numbers counted from the number of points. The same holds over all levels of the iterative filter and all rounds of the conditional filter: both runs go on or both end alike.", "quantifier": "all pairs of valid triangle meshes that differ in their point ids; all selections; all cell and edge filters (Butterfly: meshes linked in the same cyclic order, e.g. all meshes whose boundary does not touch itself); all numbers of levels; conditional filters with all measures and bounds and any number of rounds (not the conditional Loop cell filter, for which it is false)", "why_tests_cant": "all renumberings", "anchors": ["include/itkTriangleCellSubdivisionQuadEdgeMeshFilter.hxx: GenerateOutputPoints", "include/itkTriangleCellSubdivisionQuadEdgeMeshFilter.hxx: GenerateOutputCells", "include/itkLinearTriangleCellSubdivisionQuadEdgeMeshFilter.hxx: AddNewCellPoints", "include/itkLoopTriangleCellSubdivisionQuadEdgeMeshFilter.hxx: AddNewCellPoints", "include/itkModifiedButterflyTriangleCellSubdivisionQuadEdgeMeshFilter.hxx: AddNewCellPoints", "include/itkSquareThreeTriangleCellSubdivisionQuadEdgeMeshFilter.hxx: GenerateOutputCells"]}
{"id": "C46", "title": "The conditional filter keeps cell data", "statement": "The output cells of the conditional filter carry the data of the input cells they were made from, as they do for the filters it is made of.", "quantifier": "all meshes, criteria, schemes, histories and numbers of iterations", "why_tests_cant": "all meshes and all numbers of iterations; the existing tests of the conditional filter use no cell data", "anchors": ["include/itkConditionalSubdivisionQuadEdgeMeshFilter.hxx: GenerateData", "include/itkTriangleCellSubdivisionQuadEdgeMeshFilter.hxx: PassCellData"]}
{"id": "C47", "title": "The conditional filter neither throws nor has undefined behaviour on a valid mesh", "statement": "On a valid triangle mesh and with a criterion set, Update() of the conditional filter can only return normally or go on iterating, whatever the scheme, the area or length function, the threshold and the history; a mesh it returns is valid, has the Euler characteristic of the input, is closed iff the input is, has no fewer cells, and (all schemes but Loop on cells) has every point of the input in its place.", "quantifier": "all valid triangle meshes (Loop: without isolated points; SquareThree: as long as ids suffice); all schemes, criteria, thresholds, histories and numbers of iterations", "why_tests_cant": "all numbers of iterations and all meshes that arise on the way; a test sees a few runs", "anchors": ["include/itkConditionalSubdivisionQuadEdgeMeshFilter.hxx: GenerateData", "include/itkTriangleCellSubdivisionQuadEdgeMeshFilter.hxx: GenerateOutputCells", "include/itkTriangleEdgeCellSubdivisionQuadEdgeMeshFilter.hxx: GenerateOutputPoints"]}
{"id": "C48", "title": "Update() brings the output up to date", "statement": "After any calls - settings, changes of the input, earlier calls of Update() that returned or threw - an Update() that returns leaves as output the mesh that a new filter with the settings and the input asked for computes.", "quantifier": "all call sequences; all meshes (valid or not); all filters; whether or not the pipeline asks for the data again", "why_tests_cant": "all call sequences; a test calls Update() once or twice", "anchors": ["include/itkTriangleCellSubdivisionQuadEdgeMeshFilter.hxx: SetCellsToBeSubdivided", "include/itkTriangleCellSubdivisionQuadEdgeMeshFilter.hxx: GenerateOutputCells", "include/itkTriangleEdgeCellSubdivisionQuadEdgeMeshFilter.hxx: SetCellsToBeSubdivided", "include/itkIterativeTriangleCellSubdivisionQuadEdgeMeshFilter.hxx: GenerateData", "include/itkConditionalSubdivisionQuadEdgeMeshFilter.hxx: GenerateData", "include/itkConditionalSubdivisionQuadEdgeMeshFilter.hxx: SetSubdivisionCriterion"]}
{"id": "C49", "title": "Connectivity does not depend on coordinates or on rounding", "statement": "Two meshes that differ only in the coordinates of their points are subdivided alike: the runs return, throw or have undefined behaviour alike, and the outputs have the same point ids, cells, cell data, edges and recorded cells, whatever the coordinates (coincident, infinite, not a number) and whatever arithmetic on points is used.", "quantifier": "all pairs of meshes (valid or not) with the same connectivity; all point types with an addition, a zero and a scaling (no laws); all cell, edge and iterative filters; all selections, histories and numbers of levels", "why_tests_cant": "all coordinates and all roundings; a test has one mesh per run", "anchors": ["include/itkLinearTriangleCellSubdivisionQuadEdgeMeshFilter.hxx: AddNewCellPoints", "include/itkLoopTriangleCellSubdivisionQuadEdgeMeshFilter.hxx: AddNewCellPoints", "include/itkModifiedButterflyTriangleCellSubdivisionQuadEdgeMeshFilter.hxx: AddNewCellPoints", "include/itkSquareThreeTriangleCellSubdivisionQuadEdgeMeshFilter.hxx: GenerateOutputCells", "include/itkTriangleCellSubdivisionQuadEdgeMeshFilter.hxx: GenerateOutputCells"]}
{"id": "C50", "title": "Uniform Linear subdivision keeps the shapes of triangles", "statement": "n uniform levels of the Linear filter cut each input triangle at the midpoints of its sides n times over; the output triangles are exactly the cells of the regular grids with 2^n cells to a side on the input triangles; every output triangle is an input triangle scaled by 2^-n (turned by half a turn or not) and moved, so that angles, sense and proportions do not degenerate, and no side is longer than 2^-n times the longest input side.", "quantifier": "all valid triangle meshes in any vector space; all numbers of levels", "why_tests_cant": "all numbers of levels and all coordinates; a test compares a few output points", "anchors": ["include/itkLinearTriangleCellSubdivisionQuadEdgeMeshFilter.hxx: AddNewCellPoints", "include/itkIterativeTriangleCellSubdivisionQuadEdgeMeshFilter.hxx: GenerateData", "include/itkTriangleCellSubdivisionQuadEdgeMeshFilter.hxx: GenerateOutputCells"]}
{"id": "C51", "title": "Patches with a common boundary still fit after they are subdivided separately", "statement": "What a uniform run makes of the places along a boundary curve depends on these places only, not on the rest of the mesh: Linear adds the midpoints, Loop makes the steps of the cubic B-spline, SquareThree changes nothing, at each level. So two meshes that fit together along a boundary fit together, point for point, after each has been subdivided by itself the same number of times.", "quantifier": "all pairs of valid triangle meshes with a common boundary curve of any length (Loop: boundary that does not touch itself, no isolated points); all numbers of levels; all point types that are vector spaces", "why_tests_cant": "all pairs of meshes, all boundary curves and all numbers of levels; a test subdivides one mesh", "anchors": ["include/itkLinearTriangleCellSubdivisionQuadEdgeMeshFilter.hxx: AddNewCellPoints", "include/itkLoopTriangleCellSubdivisionQuadEdgeMeshFilter.hxx: AddNewCellPoints", "include/itkLoopTriangleCellSubdivisionQuadEdgeMeshFilter.hxx: SmoothingPoint", "include/itkModifiedButterflyTriangleCellSubdivisionQuadEdgeMeshFilter.hxx: AddNewCellPoints", "include/itkSquareThreeTriangleCellSubdivisionQuadEdgeMeshFilter.hxx: GenerateOutputCells", "include/itkIterativeTriangleCellSubdivisionQuadEdgeMeshFilter.hxx: GenerateData"]}
{"id": "C52", "title": "Subdivision keeps the connected pieces of a mesh", "statement": "Two points of the input are joined by a chain of triangles of the output exactly if they were in the input, and every new point is joined to a point of the input: a run neither tears a piece apart nor joins two pieces.", "quantifier": "all valid triangle meshes, all selections, all cell and edge filters (SquareThree: as long as ids suffice), all numbers of levels of the iterative filters, all runs of the conditional filter that return", "why_tests_cant": "all adjacency patterns and all numbers of levels; a test looks at one connected mesh", "anchors": ["include/itkTriangleCellSubdivisionQuadEdgeMeshFilter.hxx: GenerateOutputCells", "include/itkTriangleEdgeCellSubdivisionQuadEdgeMeshFilter.hxx: GenerateOutputPoints", "include/itkSquareThreeTriangleCellSubdivisionQuadEdgeMeshFilter.hxx: GenerateOutputCells", "include/itkIterativeTriangleCellSubdivisionQuadEdgeMeshFilter.hxx: GenerateData"]}
{"id": "C53", "title": "Uniform subdivision adds regular points only", "statement": "After any number of uniform levels the points of the input have as many triangles around them as before, and every other point is regular: six triangles, or three at the boundary. SquareThree: on closed meshes the same; in general an old point gains one triangle for each boundary edge leaving it and the new point of a triangle has six triangles less one for each boundary edge of it.", "quantifier": "all valid triangle meshes; Linear, Loop, ModifiedButterfly and SquareThree; all numbers of levels", "why_tests_cant": "all valences and all numbers of levels; a test counts cells", "anchors": ["include/itkTriangleCellSubdivisionQuadEdgeMeshFilter.hxx: GenerateOutputCells", "include/itkSquareThreeTriangleCellSubdivisionQuadEdgeMeshFilter.hxx: GenerateOutputCells", "include/itkIterativeTriangleCellSubdivisionQuadEdgeMeshFilter.hxx: GenerateData"]}
{"id": "C54", "title": "Selecting every cell is selecting none", "statement": "A run with all cells selected makes the same mesh as a run with an empty selection (uniform subdivision): the same points, cells, data, edges and rings when the cells are listed in their order, the same triangles at the same places in any order. So the two modes of the filters, which run through different code, agree where they mean the same.", "quantifier": "all valid triangle meshes; all schemes and all numbers of levels; all filter objects (fails for a Loop object whose last run was selective)", "why_tests_cant": "all meshes and all orders of the list; a test runs one mode", "anchors": ["include/itkTriangleCellSubdivisionQuadEdgeMeshFilter.hxx: SetCellsToBeSubdivided", "include/itkTriangleCellSubdivisionQuadEdgeMeshFilter.hxx: GenerateOutputCells", "include/itkLoopTriangleCellSubdivisionQuadEdgeMeshFilter.hxx: CopyInputMeshToOutputMeshPoints", "include/itkSquareThreeTriangleCellSubdivisionQuadEdgeMeshFilter.hxx: GenerateOutputCells", "include/itkIterativeTriangleCellSubdivisionQuadEdgeMeshFilter.hxx: GenerateData"]}
{"id": "C55", "title": "Selecting cells is listing their edges", "statement": "The edge filter that is given the edges of some cells, in any order and direction, makes the same triangles at the same places with the same cell data as the cell filter that is given the cells; with the edges in the order in which the cell filter meets them it makes the identical mesh.", "quantifier": "all valid triangle meshes, all selections of cells and all lists of their edges; Linear, and ModifiedButterfly (closed meshes if the direction of the edges differs); Loop is out, as its edge filter does not smooth the points", "why_tests_cant": "all selections and all orders and directions of the edges; a test runs one filter", "anchors": ["include/itkTriangleCellSubdivisionQuadEdgeMeshFilter.hxx: GenerateOutputCells", "include/itkTriangleEdgeCellSubdivisionQuadEdgeMeshFilter.hxx: GenerateOutputPoints", "include/itkLinearTriangleCellSubdivisionQuadEdgeMeshFilter.hxx: AddNewCellPoints", "include/itkModifiedButterflyTriangleCellSubdivisionQuadEdgeMeshFilter.hxx: AddNewCellPoints"]}
{"id": "C56", "title": "Errors reach the caller, and after an exception a filter can be used again", "statement": "The iterative and the conditional filter fail with an error exactly if one of their parts does, at some level or round, and with that error. A run that ends with an exception leaves the list of cells or edges and the number of levels as they were, so that after the program has caught the exception and repaired or changed the mesh, the next run gives what it would have given without the failed one.", "quantifier": "all meshes, valid or not; all selections, levels, inner filters and criteria (also the user's own); all filter objects with any history (fails for a Loop object whose last run was of the other kind)", "why_tests_cant": "all places where an error can arise and all runs afterwards; a test sees one exception, if any", "anchors": ["include/itkTriangleCellSubdivisionQuadEdgeMeshFilter.hxx: GenerateOutputPoints", "include/itkTriangleEdgeCellSubdivisionQuadEdgeMeshFilter.hxx: GenerateOutputPoints", "include/itkConditionalSubdivisionQuadEdgeMeshFilter.hxx: GenerateData", "include/itkIterativeTriangleCellSubdivisionQuadEdgeMeshFilter.hxx: GenerateData"]}
{"id": "C57", "title": "Refinement is local: cells away from the selection stay as they are", "statement": "A selective run leaves in the output, with the same corners and the same data, exactly those input cells that share no edge with a selected cell (SquareThree: exactly those not selected; edge filters: exactly those without a listed edge). However many levels the iterative filter runs, the refined region does not grow beyond the neighbours of the selected cells. Except with Loop the corners keep their positions.", "quantifier": "all valid meshes, selections, level counts; all four cell filters, the iterative filters, the edge filters", "why_tests_cant": "a growth of the region shows only for particular neighbourhoods after several levels; a test looks at one mesh", "anchors": ["include/itkTriangleCellSubdivisionQuadEdgeMeshFilter.hxx: GenerateOutputCells", "include/itkSquareThreeTriangleCellSubdivisionQuadEdgeMeshFilter.hxx: GenerateOutputCells", "include/itkIterativeTriangleCellSubdivisionQuadEdgeMeshFilter.hxx: GenerateData", "include/itkTriangleEdgeCellSubdivisionQuadEdgeMeshFilter.hxx: GenerateOutputPoints"]}
{"id": "C58", "title": "The output depends on the surface, not on how the mesh lists it", "statement": "Two meshes with the same triangles at the same places, which differ in point ids, cell ids, the order of the cells and the corner at which a cell begins, and in which the same triangles are selected (or the same edges listed), are subdivided into meshes that have the same triangles at the same places again. The same holds for the conditional filters, which moreover need the same number of iterations.", "quantifier": "all valid triangle meshes and listings of them; all four cell filters, the three edge filters, the iterative filters with all numbers of levels, the conditional filters with all symmetric measures and bounds (fails for the conditional Loop cell filter; fails if a cell of which exactly two edges are split begins at another corner; Butterfly: closed meshes; Loop: objects that smooth all points)", "why_tests_cant": "all listings of all meshes; a test uses one listing, usually that of a file", "anchors": ["include/itkTriangleCellSubdivisionQuadEdgeMeshFilter.hxx: GenerateOutputCells", "include/itkTriangleEdgeCellSubdivisionQuadEdgeMeshFilter.hxx: GenerateOutputPoints", "include/itkSquareThreeTriangleCellSubdivisionQuadEdgeMeshFilter.hxx: GenerateOutputCells", "include/itkIterativeTriangleCellSubdivisionQuadEdgeMeshFilter.hxx: GenerateData"]}
{"id": "C59", "title": "The Linear filters keep the enclosed volume and every other quantity that adds up over triangles", "statement": "Any quantity of triangles that does not depend on the first corner and adds up when a triangle is cut at the midpoint of a side has the same sum over the output as over the input: area, vector area, the flux of a constant field, the signed volume of the tetrahedra over a point. In particular a closed mesh encloses the same signed volume before and after, from whichever point it is measured.", "quantifier": "all valid meshes in Euclidean space of any dimension, all selections, listed edges and numbers of levels, all criteria and thresholds of the conditional filters (when they return), all additive quantities", "why_tests_cant": "all meshes and quantities; a test compares at most one number on one mesh, up to rounding", "anchors": ["include/itkLinearTriangleCellSubdivisionQuadEdgeMeshFilter.hxx: AddNewCellPoints", "include/itkTriangleCellSubdivisionQuadEdgeMeshFilter.hxx: SplitTriangleFromOneEdge", "include/itkTriangleCellSubdivisionQuadEdgeMeshFilter.hxx: SplitTriangleFromTwoEdges", "include/itkTriangleCellSubdivisionQuadEdgeMeshFilter.hxx: SplitTriangleFromThreeEdges", "include/itkIterativeTriangleCellSubdivisionQuadEdgeMeshFilter.hxx: GenerateData", "include/itkConditionalSubdivisionQuadEdgeMeshFilter.hxx: GenerateData"]}
{"id": "C60", "title": "The conditional filters refine exactly where the criterion asks for it", "statement": "When the conditional filter returns: with an edge filter, exactly the input edges that are not too long are edges of the output and exactly the triangles without a too long edge are triangles of the output; with SquareThree exactly the triangles that are not too large are in the output; with Linear exactly the triangles that are neither too large nor share an edge with a too large one. No triangle is refined because of what happened in a later round, and the original points stay where they were.", "quantifier": "all valid meshes, thresholds, numbers of rounds and states of the filter; edge filters of all three schemes with any symmetric length; SquareThree with any area function; Linear with the area of the code in Euclidean space of any dimension", "why_tests_cant": "a needless refinement shows only for particular neighbourhoods after several rounds; a test looks at one mesh", "anchors": ["include/itkConditionalSubdivisionQuadEdgeMeshFilter.hxx: GenerateData", "include/itkTriangleCellSubdivisionQuadEdgeMeshFilter.hxx: GenerateOutputCells", "include/itkSquareThreeTriangleCellSubdivisionQuadEdgeMeshFilter.hxx: GenerateOutputCells", "include/itkTriangleEdgeCellSubdivisionQuadEdgeMeshFilter.hxx: GenerateOutputPoints"]}
{"id": "C61", "title": "The Linear filters keep the normals and make no degenerate triangles", "statement": "Every triangle that a Linear filter makes lies in a triangle of the input, in its plane, and looks to the same side: its vector area is a positive multiple of that of the input triangle. If no triangle of the input is degenerate, none of the output is. So shading normals and the inside of a surface survive any number of levels.", "quantifier": "all valid meshes in Euclidean space of any dimension, all selections, listed edges and numbers of levels, all criteria and thresholds of the conditional filters (when they return)", "why_tests_cant": "a flipped or degenerate triangle arises only for particular combinations of split edges; a test looks at a few of them", "anchors": ["include/itkLinearTriangleCellSubdivisionQuadEdgeMeshFilter.hxx: AddNewCellPoints", "include/itkTriangleCellSubdivisionQuadEdgeMeshFilter.hxx: SplitTriangleFromOneEdge", "include/itkTriangleCellSubdivisionQuadEdgeMeshFilter.hxx: SplitTriangleFromTwoEdges", "include/itkTriangleCellSubdivisionQuadEdgeMeshFilter.hxx: SplitTriangleFromThreeEdges", "include/itkIterativeTriangleCellSubdivisionQuadEdgeMeshFilter.hxx: GenerateData", "include/itkConditionalSubdivisionQuadEdgeMeshFilter.hxx: GenerateData"]}
{"id": "C62", "title": "On regular parts of a mesh Butterfly reproduces cubic surfaces and Loop quadratic ones up to a shift", "statement": "If the points lie on a polynomial surface over parameters in which neighbouring triangles form parallelograms, the points that ModifiedButterfly inserts on an edge whose stencil exists lie exactly on the surface, over the middle of the edge, if its degree is at most three. For Loop and degree at most two the inserted points and the points with six triangles around them are all moved off the surface by one and the same vector, which depends only on the quadratic part and the shape of the triangles in the parameters. So the filters have the order of precision of the published schemes.", "quantifier": "all valid meshes, parameters and polynomials with coefficients in any vector space (any field of characteristic zero for Butterfly and for Loop's edge points); all selections; Butterfly cell and edge filter", "why_tests_cant": "all polynomials and meshes; a wrong weight of the stencil that keeps the sum one shows only on curved input, and tests compare with a stored mesh at best", "anchors": ["include/itkModifiedButterflyTriangleCellSubdivisionQuadEdgeMeshFilter.hxx: AddNewCellPoints", "include/itkLoopTriangleCellSubdivisionQuadEdgeMeshFilter.hxx: AddNewCellPoints", "include/itkLoopTriangleCellSubdivisionQuadEdgeMeshFilter.hxx: SmoothingPoint"]}
{"id": "C63", "title": "Symmetric surfaces stay symmetric, and both sides of a surface are treated alike", "statement": "If an affine map takes the surface to itself, as a rotation or, reversing the orientation of the triangles, as a reflection, it takes the subdivided surface to itself, and the input points are permuted as before. More generally a mesh and the same mesh with all triangles turned over are subdivided into meshes that are again each other turned over: no filter prefers one side of the surface.", "quantifier": "all valid triangle meshes, all affine maps and permutations of the points, all numbers of levels; all four cell filters and the iterative filters; the conditional filters with area and length criteria; edge filters and selective runs for turned meshes (fails if a cell has exactly two split edges; fails for the conditional filter with the Loop cell filter, from its second round on; Butterfly: closed meshes; Loop: boundaries that do not touch themselves)", "why_tests_cant": "all symmetric meshes and maps; a test compares no two outputs, and symmetry is lost by rounding in any case", "anchors": ["include/itkTriangleCellSubdivisionQuadEdgeMeshFilter.hxx: GenerateOutputCells", "include/itkTriangleEdgeCellSubdivisionQuadEdgeMeshFilter.hxx: GenerateOutputPoints", "include/itkSquareThreeTriangleCellSubdivisionQuadEdgeMeshFilter.hxx: GenerateOutputCells", "include/itkModifiedButterflyTriangleCellSubdivisionQuadEdgeMeshFilter.hxx: AddNewCellPoints", "include/itkLoopTriangleCellSubdivisionQuadEdgeMeshFilter.hxx: AddNewCellPoints", "include/itkIterativeTriangleCellSubdivisionQuadEdgeMeshFilter.hxx: GenerateData"]}
{"id": "C64", "title": "Positions enter linearly: coordinates do not mix and surfaces can be blended", "statement": "A map of positions that keeps zero, sums and multiples can be applied before or after a run. So each coordinate of the output is computed from that coordinate alone, attributes carried as further coordinates are subdivided with the positions, and subdividing a mixture of two surfaces over the same mesh gives the same mixture of the two subdivided surfaces (a morph of the results is the result of the morph), with the same cells. If the one run fails, the other fails in the same way.", "quantifier": "all meshes, valid or not, all such maps between any two types of positions, all selections, listed edges, numbers of levels and states of the object; all cell, edge and iterative filters", "why_tests_cant": "all positions, maps and mixtures; a test checks single positions", "anchors": ["include/itkModifiedButterflyTriangleCellSubdivisionQuadEdgeMeshFilter.hxx: AddNewCellPoints", "include/itkLoopTriangleCellSubdivisionQuadEdgeMeshFilter.hxx: AddNewCellPoints", "include/itkLoopTriangleCellSubdivisionQuadEdgeMeshFilter.hxx: SmoothingPoint", "include/itkLinearTriangleCellSubdivisionQuadEdgeMeshFilter.hxx: AddNewCellPoints", "include/itkSquareThreeTriangleCellSubdivisionQuadEdgeMeshFilter.hxx: AddNewCellPoints", "include/itkIterativeTriangleCellSubdivisionQuadEdgeMeshFilter.hxx: GenerateData"]}
{"id": "C65", "title": "Moving points changes the surface only nearby", "statement": "Two meshes with the same cells give outputs with the same cells, and a point of the output has the same position in both, to the last bit, unless a point near the input points it belongs to was moved: these points themselves for Linear and SquareThree, their neighbours for Loop, the neighbours of the neighbours for ModifiedButterfly. Over several levels the distance grows by one such step (SquareThree: one edge) per level.", "quantifier": "all valid meshes and all changes of positions, all selections, listed edges and numbers of levels; all cell, edge and iterative filters; any arithmetic", "why_tests_cant": "all pairs of meshes; a test runs a filter on single meshes and compares no two runs", "anchors": ["include/itkModifiedButterflyTriangleCellSubdivisionQuadEdgeMeshFilter.hxx: AddNewCellPoints", "include/itkLoopTriangleCellSubdivisionQuadEdgeMeshFilter.hxx: AddNewCellPoints", "include/itkLoopTriangleCellSubdivisionQuadEdgeMeshFilter.hxx: SmoothingPoint", "include/itkLinearTriangleCellSubdivisionQuadEdgeMeshFilter.hxx: AddNewCellPoints", "include/itkSquareThreeTriangleCellSubdivisionQuadEdgeMeshFilter.hxx: AddNewCellPoints", "include/itkIterativeTriangleCellSubdivisionQuadEdgeMeshFilter.hxx: GenerateData"]}
{"id": "C66", "title": "Rounding errors stay small: a run in machine arithmetic is close to the exact one", "statement": "If sums and multiples of positions have relative error at most e (and, for numbers too small to be represented, an absolute error), and nothing overflows, the output in machine arithmetic has the same cells, point ids, cell data and edges as the output in exact arithmetic, and no point is further from its exact place than ((1+e)^(L r) - 1) times the size of the surface (plus the absolute errors), where L is the number of levels and r the number of operations that follow one another in a level: 2 for Linear, 4 for SquareThree, 9 for ModifiedButterfly, 5 more than the largest number of triangles at a point for Loop. For ModifiedButterfly the size grows by 3/2 per level. So in double three levels of Loop on a surface of size 4 are exact up to 1e-13.", "quantifier": "all valid meshes, all arithmetics with such errors (not necessarily commutative or associative), all selections, listed edges and numbers of levels; cell, edge and iterative filters (Loop: boundaries that do not touch themselves); conditional filters are not covered, since rounding can change what they refine", "why_tests_cant": "all meshes, positions and rounding modes; a test compares a few positions with a tolerance chosen by hand", "anchors": ["include/itkModifiedButterflyTriangleCellSubdivisionQuadEdgeMeshFilter.hxx: AddNewCellPoints", "include/itkLoopTriangleCellSubdivisionQuadEdgeMeshFilter.hxx: AddNewCellPoints", "include/itkLoopTriangleCellSubdivisionQuadEdgeMeshFilter.hxx: SmoothingPoint", "include/itkLinearTriangleCellSubdivisionQuadEdgeMeshFilter.hxx: AddNewCellPoints", "include/itkSquareThreeTriangleCellSubdivisionQuadEdgeMeshFilter.hxx: AddNewCellPoints", "include/itkIterativeTriangleCellSubdivisionQuadEdgeMeshFilter.hxx: GenerateData"]}
{"id": "C67", "title": "Uniform refinement converges: edges shrink geometrically and every point tends to a limit", "statement": "After n uniform levels no edge is longer than q^n times the longest edge of the input, with q = 1/2 for Linear, 7/8 for Loop and ModifiedButterfly and 2/3 for SquareThree; so enough levels make the mesh as fine as one likes. From one number of levels to a larger one no point moves by more than 5 times (Loop; not at all for the others) the bound on the edges of the coarser mesh, and every point of the finer mesh is within 12 (Loop), 7 (ModifiedButterfly), 2 (SquareThree) or 1 (Linear) times that bound of a point of the coarser mesh. Every point tends to a limit, and n levels are within a multiple of q^n of it.", "quantifier": "all valid triangle meshes with positions in any normed space (limits: complete), any number of points around a point, all numbers of levels; Loop with the cosine of the code and boundaries that do not touch themselves, ModifiedButterfly and SquareThree on closed meshes (SquareThree never shortens a boundary edge); exact arithmetic", "why_tests_cant": "a statement about all numbers of levels and the limit; a test runs two or three levels and the number of cells grows fourfold with each", "anchors": ["include/itkModifiedButterflyTriangleCellSubdivisionQuadEdgeMeshFilter.hxx: AddNewCellPoints", "include/itkLoopTriangleCellSubdivisionQuadEdgeMeshFilter.hxx: AddNewCellPoints", "include/itkLoopTriangleCellSubdivisionQuadEdgeMeshFilter.hxx: SmoothingPoint", "include/itkLinearTriangleCellSubdivisionQuadEdgeMeshFilter.hxx: AddNewCellPoints", "include/itkSquareThreeTriangleCellSubdivisionQuadEdgeMeshFilter.hxx: AddNewCellPoints", "include/itkIterativeTriangleCellSubdivisionQuadEdgeMeshFilter.hxx: GenerateData"]}
{"id": "C68", "title": "Beside the part that is refined the triangles at a point double with every level", "statement": "When a cell filter refines some cells over n levels, a point that is a corner of none of them has, in the place of each of its triangles whose opposite side belongs to a refined cell, exactly 2^n triangles afterwards; its other triangles are kept. So a user cannot rely on a bound for the number of triangles at a point under selective refinement, and with Linear these triangles become slivers, with a side of 1/2^n the length while the opposite corner stays where it is. No point can fare worse: the largest number of triangles at a point (at least three) at most doubles with a level.", "quantifier": "all valid meshes, all selections and numbers of levels; Linear, Loop and Butterfly iterative filters", "why_tests_cant": "exponential growth with the number of levels at particular points; a test counts all cells of one output at best", "anchors": ["include/itkTriangleCellSubdivisionQuadEdgeMeshFilter.hxx: GenerateOutputCells", "include/itkTriangleCellSubdivisionQuadEdgeMeshFilter.hxx: SplitTriangleFromOneEdge", "include/itkIterativeTriangleCellSubdivisionQuadEdgeMeshFilter.hxx: GenerateData"]}
{"id": "C69", "title": "A filter whose output mesh has another coordinate type computes in the input type and converts once", "statement": "With different mesh types for input and output (float and double, say), a filter gives the output of the same filter with one type, every position converted exactly once when it is written: same ids, cells, data, errors and recorded selection; the old points are the converted input points where the scheme keeps them. A wider output type brings no precision, the error is that of the run in the input type plus that of one conversion, and converting the mesh first gives the same only if the conversion is exact.", "quantifier": "all meshes (valid or not), all conversions that map zero to zero, all filter objects; Loop, Butterfly and SquareThree cell filters and all edge filters (the others require equal types)", "why_tests_cant": "tests instantiate the filters with one mesh type; the claim is about every conversion", "anchors": ["include/itkLoopTriangleCellSubdivisionQuadEdgeMeshFilter.hxx: AddNewCellPoints", "include/itkModifiedButterflyTriangleCellSubdivisionQuadEdgeMeshFilter.hxx: AddNewCellPoints", "include/itkSquareThreeTriangleCellSubdivisionQuadEdgeMeshFilter.hxx: AddNewCellPoints", "include/itkLoopTriangleCellSubdivisionQuadEdgeMeshFilter.hxx: CopyInputMeshToOutputMeshPoints", "include/itkLinearTriangleEdgeCellSubdivisionQuadEdgeMeshFilter.hxx: AddNewEdgePoints", "include/itkLoopTriangleEdgeCellSubdivisionQuadEdgeMeshFilter.hxx: AddNewEdgePoints", "include/itkModifiedButterflyTriangleEdgeCellSubdivisionQuadEdgeMeshFilter.hxx: AddNewEdgePoints"]}
{"id": "C70", "title": "The conditional filter with SquareThree ends for every positive area", "statement": "With SquareThree as inner filter and a positive MaximumArea, Update() of the conditional filter returns after a number of iterations that is the product of two logarithms of (longest edge)^2 / area. The result is a valid mesh without a triangle above the threshold; old points stay, and triangles that were small enough from the start are still there. This is not because areas decrease: an iteration may make a triangle that is larger than all triangles before.", "quantifier": "all valid meshes in Euclidean space of any dimension, all positive thresholds, all states of the filter objects, as long as point ids suffice", "why_tests_cant": "termination for every mesh and threshold; an observed run ends or does not", "anchors": ["include/itkConditionalSubdivisionQuadEdgeMeshFilter.hxx: GenerateData", "include/itkSquareThreeTriangleCellSubdivisionQuadEdgeMeshFilter.hxx: AddNewCellPoints", "include/itkSquareThreeTriangleCellSubdivisionQuadEdgeMeshFilter.hxx: GenerateOutputCells"]}
{"id": "C71", "title": "SquareThree does not turn triangles over", "statement": "The sum of the vector areas of the triangles is the same before and after SquareThree, for any selection and number of levels. A triangle of the output is a triangle of the input, or has a third of the normal of a selected one, or lies at the edge a b between two selected triangles a b c and b a d and has the vector area (2 n(b,c,d) + n(c,a,d)) / 9. So triangles keep looking to the same side where every such edge can be flipped, in particular when no two selected triangles are neighbours. In general they do not: two triangles lying side by side in the plane can give an output that folds over itself.", "quantifier": "all valid meshes in Euclidean space of any dimension, all selections and vector products; levels for the sum", "why_tests_cant": "folds depend on the shapes of neighbouring triangles; the test meshes have none", "anchors": ["include/itkSquareThreeTriangleCellSubdivisionQuadEdgeMeshFilter.hxx: AddNewCellPoints", "include/itkSquareThreeTriangleCellSubdivisionQuadEdgeMeshFilter.hxx: GenerateOutputCells"]}
{"id": "C72", "title": "In a row of filters, Update() of any of them gives what the filters give by hand", "statement": "When the output of each filter is the input of the next, then after any calls on any of them (settings, changes of the input mesh, earlier calls of Update() at any place that returned or threw) the next Update(), at any place, gives the same mesh or the same failure as running the filters with the settings and the input asked for one after the other. One Update() executes each filter at most once, unless the pipeline asks again: then, because the iterative filter updates its input from within its own run, the filter i places before the end of a row of iterative filters is executed 2^i times, and a cell filter with a list in front of an iterative filter runs on ids of its own output.", "quantifier": "rows of any length of cell and edge filters without lists, iterative filters, conditional filters (not Loop); all sequences of calls; all decisions of the pipeline; the counts for all filters", "why_tests_cant": "depends on the order of time stamps over any sequence of calls at several places; the tests connect one filter to one reader", "anchors": ["include/itkIterativeTriangleCellSubdivisionQuadEdgeMeshFilter.hxx: GenerateData", "include/itkConditionalSubdivisionQuadEdgeMeshFilter.hxx: GenerateData", "include/itkTriangleCellSubdivisionQuadEdgeMeshFilter.hxx: SetCellsToBeSubdivided"]}
{"id": "C73", "title": "SquareThree flattens the triangles at the rim of the refined part", "statement": "An edge with a refined triangle on one side only (an edge of the boundary, or between a listed cell and one not listed) is never split: after n levels of the iterative filter it is there, its ends have not moved, and the triangle over it has its third corner on the median at 3^-n of the way from the middle of the edge, so that its area is divided by 3^n. The conditional filter with the area criterion ends with such triangles along the boundary: the third corner came down j times, j being the least number for which the area is at most the maximum.", "quantifier": "all valid meshes, all lists of cells, all numbers of levels, all such edges; all thresholds and all runs of the conditional filter", "why_tests_cant": "the tests look at one closed mesh or do not look at the shape of triangles; the flattening is a statement about any number of levels", "anchors": ["include/itkSquareThreeTriangleCellSubdivisionQuadEdgeMeshFilter.hxx: AddNewCellPoints", "include/itkSquareThreeTriangleCellSubdivisionQuadEdgeMeshFilter.hxx: GenerateOutputCells", "include/itkIterativeTriangleCellSubdivisionQuadEdgeMeshFilter.hxx: GenerateData", "include/itkConditionalSubdivisionQuadEdgeMeshFilter.hxx: GenerateData"]}
{"id": "C74", "title": "What a conditional filter returns is settled", "statement": "Running a conditional filter on the mesh that a conditional filter has returned, with the same criterion and the same or a larger threshold, returns exactly that mesh: same point ids and positions, same cell ids and corners, same edges and rings. This holds whatever scheme the second filter uses and whatever it has done before; its inner filter is not run, and its selection is empty afterwards.", "quantifier": "all valid meshes, all pairs of schemes, all thresholds A <= A' (area) and L <= L' (edge length), all runs that return, all histories of both filters", "why_tests_cant": "needs the end state of every run of a loop of unknown length, and equality of whole meshes; the tests run each conditional filter once", "anchors": ["include/itkConditionalSubdivisionQuadEdgeMeshFilter.hxx: GenerateData"]}
{"id": "C75", "title": "The conditional filter with the Loop edge filter ends for every positive length", "statement": "With the Loop edge filter and a positive MaximumLength, Update() of the conditional filter returns, after at most n iterations if no edge of the input is longer than (10/9)^n times the maximum. The output is a valid mesh inside the convex hull of the input, it keeps the points of the input where they are, and none of its edges is longer than the maximum.", "quantifier": "all valid meshes without isolated points in any Euclidean space, all positive thresholds, all histories of the filter", "why_tests_cant": "termination of a loop whose new points do not lie on the old surface; a test sees one mesh and one threshold", "anchors": ["include/itkConditionalSubdivisionQuadEdgeMeshFilter.hxx: GenerateData", "include/itkLoopTriangleEdgeCellSubdivisionQuadEdgeMeshFilter.hxx: AddNewEdgePoints"]}
{"id": "C76", "title": "The size of a refined mesh is bounded by what is refined", "statement": "A run of a cell filter (Linear, Loop, ModifiedButterfly) with a list adds at most six triangles and three points for each entry of the list, a run of an edge filter with a list at most two triangles and one point for each entry, and n levels of the iterative filter at most 4 (4^n - 1) triangles and 2 (4^n - 1) points for each entry. The conditional filter with the Linear filter and a positive MaximumArea A adds at most 4 a / A - 1 points and twice as many triangles for each input triangle of area a larger than A; its result has at least totalArea / A triangles, and at most 8 totalArea / A more than the input.", "quantifier": "all valid meshes, all lists, all numbers of levels, all positive areas", "why_tests_cant": "a bound on memory over all meshes, lists and thresholds; a test sees the size of one result", "anchors": ["include/itkTriangleCellSubdivisionQuadEdgeMeshFilter.hxx: GenerateOutputCells", "include/itkTriangleEdgeCellSubdivisionQuadEdgeMeshFilter.hxx: GenerateOutputPoints", "include/itkIterativeTriangleCellSubdivisionQuadEdgeMeshFilter.hxx: GenerateData", "include/itkConditionalSubdivisionQuadEdgeMeshFilter.hxx: GenerateData"]}
{"id": "C77", "title": "The pieces of a mesh do not influence one another", "statement": "If a mesh consists of two pieces that have no point in common, then the output of a cell filter, an edge filter or the iterative filter (any scheme) consists of what the filter yields on one piece and what it yields on the other, at the same places, and of nothing else; this holds wherever the pieces lie and however their points and cells are numbered. The conditional filters return for the mesh after some number of iterations exactly if they return for both pieces, and with the same composition, though one piece may be done earlier than the other. A piece of which nothing is selected is in the output as it was, with its ids, after any number of levels (not the Loop cell filter, see C42). Conditions on ModifiedButterfly and Loop as in C58.", "quantifier": "all valid meshes that consist of two pieces, all selections, all numberings, all numbers of levels; conditional filters with all symmetric measures and bounds (not the conditional Loop cell filter)", "why_tests_cant": "about all pairs of meshes and all ways of putting them into one container; a test compares one composite with its parts", "anchors": ["include/itkTriangleCellSubdivisionQuadEdgeMeshFilter.hxx: GenerateOutputCells", "include/itkTriangleEdgeCellSubdivisionQuadEdgeMeshFilter.hxx: GenerateOutputPoints", "include/itkIterativeTriangleCellSubdivisionQuadEdgeMeshFilter.hxx: GenerateData", "include/itkSquareThreeTriangleCellSubdivisionQuadEdgeMeshFilter.hxx: GenerateOutputCells"]}
{"id": "C78", "title": "ModifiedButterfly with an area criterion returns", "statement": "The conditional filter with the ModifiedButterfly cell filter and a positive area returns on every valid mesh. (Users expect it since each refinement makes triangles smaller: so it is for Linear, C32, SquareThree, C70, and with the Loop edge filter and a length, C75. It is false: there are planar meshes, with all triangles oriented alike, and positive areas for which the filter never returns. In such a mesh the triangle at a corner of the boundary is replaced by one of the same size at the same place in each iteration; this is so for all meshes near to it, in machine arithmetic too, and in any position and size.)", "quantifier": "all valid meshes, all positive areas", "why_tests_cant": "about unbounded executions: no finite run shows that an Update() does not return", "anchors": ["include/itkConditionalSubdivisionQuadEdgeMeshFilter.hxx: GenerateData", "include/itkModifiedButterflyTriangleCellSubdivisionQuadEdgeMeshFilter.hxx: AddNewCellPoints"]}
{"id": "C79", "title": "The Loop filter smooths with the weights its documentation gives", "statement": "In a uniform run of a Loop filter an inner point with N neighbours moves to (1 - N beta) times itself plus beta times the sum of its neighbours, where beta = (1/N) (5/8 - (3/8 + 1/4 cos^2(2 pi/N))) as the header documents. (False for every N and every point that is not the mean of its neighbours already: the code squares the whole bracket, as the scheme of Loop does, and moves the point further, by at least 3/16 of the way to the mean. What holds is that the point goes between 15/64 and 39/64 of the way.)", "quantifier": "all valid meshes without isolated points, all inner points, all numbers of neighbours", "why_tests_cant": "a test compares positions for a few meshes with numbers computed by the same code; that the two formulas agree for no number of neighbours is a statement about all of them", "anchors": ["include/itkLoopTriangleCellSubdivisionQuadEdgeMeshFilter.h: class documentation", "include/itkLoopTriangleCellSubdivisionQuadEdgeMeshFilter.hxx: SmoothingPoint"]}
{"id": "C80", "title": "The rim of an open mesh stays in its plane", "statement": "If all points of a boundary curve lie in a convex set (a plane, a line, a half space, the floor the object stands on), then after a run the boundary curve through the same points lies in that set too, however the rest of the surface is curved. (It holds for Linear, Loop with a boundary that does not touch itself, and SquareThree, with any selection, any number of levels, and for the conditional filters, and for the Linear and Loop edge filters; ModifiedButterfly takes the inner points into account and moves a flat rim out of its plane.)", "quantifier": "all valid meshes, all boundary curves, all convex sets, all selections, numbers of levels and thresholds", "why_tests_cant": "a test looks at the rim of a few models; that no inner point enters the rule for the boundary, and that the boundary points of the output come from one curve each, is a statement about all meshes and all levels", "anchors": ["include/itkTriangleCellSubdivisionQuadEdgeMeshFilter.hxx: GenerateOutputPoints, GenerateOutputCells", "include/itkLinearTriangleCellSubdivisionQuadEdgeMeshFilter.hxx: AddNewCellPoints", "include/itkLoopTriangleCellSubdivisionQuadEdgeMeshFilter.hxx: AddNewEdgePoints, SmoothingPoint", "include/itkModifiedButterflyTriangleCellSubdivisionQuadEdgeMeshFilter.hxx: AddNewCellPoints", "include/itkSquareThreeTriangleCellSubdivisionQuadEdgeMeshFilter.hxx: AddNewCellPoints", "include/itkLoopTriangleEdgeCellSubdivisionQuadEdgeMeshFilter.hxx: AddNewEdgePoints"]}
{"id": "C81", "title": "A flat surface stays flat and keeps its area", "statement": "If all points of a mesh lie in a plane (on a line, in any affine subspace) then so do all points of the output, and the flat surface keeps its area. (The first part holds for every scheme, with any selection, any number of levels, and for the edge filters and the conditional filters; with the Loop cell filters for meshes whose boundary does not touch itself. The area is kept by Linear (C59) and SquareThree (C71); ModifiedButterfly leaves a quarter of the area of a single triangle, Loop five eighths.)", "quantifier": "all valid meshes, all affine subspaces, all selections, numbers of levels and thresholds", "why_tests_cant": "a test compares coordinates with 0 for a few meshes in a coordinate plane; the statement is about every plane and every mesh in it", "anchors": ["include/itkTriangleCellSubdivisionQuadEdgeMeshFilter.hxx: GenerateOutputPoints", "include/itkTriangleEdgeCellSubdivisionQuadEdgeMeshFilter.hxx: GenerateOutputPoints", "include/itkIterativeTriangleCellSubdivisionQuadEdgeMeshFilter.hxx: GenerateData", "include/itkConditionalSubdivisionQuadEdgeMeshFilter.hxx: GenerateData", "include/itkModifiedButterflyTriangleCellSubdivisionQuadEdgeMeshFilter.hxx: AddNewCellPoints", "include/itkLoopTriangleCellSubdivisionQuadEdgeMeshFilter.hxx: SmoothingPoint"]}
{"id": "C82", "title": "A surface that does not meet itself does not do so after refinement", "statement": "If no point of space is reached twice by the surface of a mesh (a point of one triangle that is also a point of another one lies on the corner or the edge that both share) then neither is it by the surface of the output. (Holds for Linear, with any selection, any list of edges, any number of levels and for the conditional filters. With ModifiedButterfly, SquareThree and Loop a flat surface of two or three triangles may overlap itself after one level.)", "quantifier": "all valid meshes in all vector spaces, all selections, lists of edges, numbers of levels and thresholds", "why_tests_cant": "a test intersects the triangles of a few outputs in pairs, with a tolerance; the statement is about every point of the surface of every mesh", "anchors": ["include/itkTriangleCellSubdivisionQuadEdgeMeshFilter.hxx: GenerateOutputCells", "include/itkTriangleEdgeCellSubdivisionQuadEdgeMeshFilter.hxx: GenerateOutputPoints", "include/itkIterativeTriangleCellSubdivisionQuadEdgeMeshFilter.hxx: GenerateData", "include/itkConditionalSubdivisionQuadEdgeMeshFilter.hxx: GenerateData", "include/itkLinearTriangleCellSubdivisionQuadEdgeMeshFilter.hxx: AddNewCellPoints", "include/itkModifiedButterflyTriangleCellSubdivisionQuadEdgeMeshFilter.hxx: AddNewCellPoints", "include/itkSquareThreeTriangleCellSubdivisionQuadEdgeMeshFilter.hxx: AddNewCellPoints"]}
{"id": "C83", "title": "The conditional filter with the ModifiedButterfly edge filter ends for every positive length", "statement": "With the ModifiedButterfly edge filter and a positive MaximumLength the conditional filter returns, the output keeps the points of the input, and no edge is longer than the maximum; there is an explicit bound for the number of iterations. (Proved for closed meshes. New edges can be longer than the edges around them, so that the longest edge need not shrink in every iteration.)", "quantifier": "all valid closed meshes in all real inner product spaces, all positive thresholds, all earlier states of the filter objects", "why_tests_cant": "a test that returns says nothing about other meshes; with the area criterion the same scheme does not always return (C78)", "anchors": ["include/itkConditionalSubdivisionQuadEdgeMeshFilter.hxx: GenerateData", "include/itkModifiedButterflyTriangleEdgeCellSubdivisionQuadEdgeMeshFilter.hxx: AddNewEdgePoints", "include/itkTriangleEdgeCellSubdivisionQuadEdgeMeshFilter.hxx: GenerateOutputPoints"]}
{"id": "C84", "title": "The conditional filter works with every criterion that lists existing cells or edges", "statement": "A class derived from QuadEdgeMeshSubdivisionCriterion may choose cells (edges) by any test, keep and change members of its own, and throw. As long as it lists existing cells (distinct existing edges; with SquareThree distinct cells), the conditional filter never has undefined behaviour and throws nothing but what the criterion throws; what it returns is a valid mesh in which the criterion has just found nothing, with the same Euler characteristic and closedness, the original points kept (Loop cell filter: not), within the convex hull (not ModifiedButterfly), and, with Linear, the same surface. A criterion that gives up after some number of calls makes every run return; one that does not clear the list it is given makes no run return that lists anything. With \"all cells, n times\" the conditional filter is the iterative filter with n levels (not Loop).", "quantifier": "all criteria with members of any type, all valid meshes, all schemes, all numbers of iterations, all earlier states of the filter objects", "why_tests_cant": "the class is an extension point: criteria that do not exist yet cannot be tested; tests use the two criteria of the library, which have no state", "anchors": ["include/itkConditionalSubdivisionQuadEdgeMeshFilter.hxx: GenerateData", "include/itkQuadEdgeMeshSubdivisionCriterion.h: Compute"]}
{"id": "C85", "title": "The size of an adaptive Linear refinement is a function of the areas, and a smaller maximum never gives a smaller mesh", "statement": "With the conditional filter, the Linear cell filter, the area criterion and a maximum A > 0: let d(t) be the least n with area(t) <= 4^n A. The result has exactly the sum over the input triangles t of 4^d(t) + sum over its sides of (2^max(d(t), d(t')) - 2^d(t)) triangles, t' being the triangle across the side; a boundary edge of t becomes 2^d(t) boundary edges; the number of points follows. The filter needs exactly max d(t) iterations. Lowering A never gives fewer triangles, boundary edges or points, whatever the filter objects did before. If all d(t) are the same number k, the result has 4^k times as many triangles.", "quantifier": "all valid meshes in any real inner product space, all A > 0, all earlier states of the filter objects", "why_tests_cant": "the size is a sum over a whole history of iterations in which triangles are also cut because of their neighbours; tests look at single meshes and thresholds, and monotonicity compares two arbitrary runs", "anchors": ["include/itkConditionalSubdivisionQuadEdgeMeshFilter.hxx: GenerateData", "include/itkCellAreaTriangleCellSubdivisionCriterion.hxx: Compute", "include/itkLinearTriangleCellSubdivisionQuadEdgeMeshFilter.hxx: AddNewCellPoints", "include/itkTriangleCellSubdivisionQuadEdgeMeshFilter.hxx: GenerateOutputCells"]}
{"id": "C86", "title": "Print() tells what a filter does", "statement": "Print(os) writes to os what the next Update() will do: whether all cells (edges) are subdivided, and, for the iterative filter, how many levels there are. Fails: \"Is Uniform Subdivision\" is what the last run did (or 1), whatever has been selected since; the iterative filter writes the number of levels to std::cout instead of os. Holds after every Update() of a valid mesh: the flag says whether this Update subdivided everything and whether the next one will.", "quantifier": "all filter objects with any history, all selections, all valid meshes, all numbers of levels", "why_tests_cant": "that the flag is right after a run says that no step of any run changes it after it is set and that the recorded selection is empty exactly for uniform runs; tests print once and do not read the text", "anchors": ["include/itkTriangleCellSubdivisionQuadEdgeMeshFilter.hxx: PrintSelf", "include/itkTriangleEdgeCellSubdivisionQuadEdgeMeshFilter.hxx: PrintSelf", "include/itkIterativeTriangleCellSubdivisionQuadEdgeMeshFilter.hxx: PrintSelf", "include/itkConditionalSubdivisionQuadEdgeMeshFilter.hxx: PrintSelf"]}
{"id": "C87", "title": "Adaptive Linear refinement keeps the shapes of triangles within a fixed bound, however small the maximum is", "statement": "Conditional filter, Linear. If the area of every input triangle is at least q times the square of each of its sides (q > 0), then every output triangle has at least q^3 times the square of each of its sides with the area criterion, and q^5 and also q/600 times with the length criterion of the edge filter, for all positive maxima. In terms of angles: sines of at least s become sines of at least s^6/4 (s^10/16 and s^2/600). No output triangle is much smaller than asked for: its area is at least q^2 min(A/4, a) (q^4 min(q L^2/4, a), and also min(q L^2/2400, a)), a being a lower bound of the input areas, and so the number of output triangles is at most the total area divided by that.", "quantifier": "all valid meshes in any real inner product space, all A > 0 or L > 0, all q > 0, all earlier states of the filter objects", "why_tests_cant": "triangles beside the refined region are cut again in each iteration without getting similar to their parents; whether their angles stay away from zero as the maximum goes to zero is a statement about unboundedly many iterations", "anchors": ["include/itkConditionalSubdivisionQuadEdgeMeshFilter.hxx: GenerateData", "include/itkCellAreaTriangleCellSubdivisionCriterion.hxx: Compute", "include/itkEdgeLengthTriangleEdgeCellSubdivisionCriterion.hxx: Compute", "include/itkLinearTriangleCellSubdivisionQuadEdgeMeshFilter.hxx: AddNewCellPoints", "include/itkTriangleCellSubdivisionQuadEdgeMeshFilter.hxx: GenerateOutputCells", "include/itkTriangleEdgeCellSubdivisionQuadEdgeMeshFilter.hxx: GenerateOutputPoints"]}
{"id": "C88", "title": "Adaptive Linear refinement makes no large fans: the number of triangles at a point stays bounded as the maximum goes to zero", "statement": "Conditional filter, Linear. If the area of every input triangle is at least q times the square of each of its sides (0 < q <= 1), then the number of triangles at each point of the output is at most 1/q times the larger one of 6 and the number at that point in the input with the area criterion, and 1/q^2 and also 13/q times with the length criterion of the edge filter, for all positive maxima. (With selected cells and levels instead of a criterion there is no such bound: C68.) If no triangle is thinner than q = 1/8 and no point has more than six triangles, then no point gets more than 48.", "quantifier": "all valid meshes in any real inner product space, all A > 0 or L > 0, all q in (0, 1], all points, all earlier states of the filter objects", "why_tests_cant": "the fans grow by doubling in iterations whose number is not bounded; each test ends after a few iterations", "anchors": ["include/itkConditionalSubdivisionQuadEdgeMeshFilter.hxx: GenerateData", "include/itkCellAreaTriangleCellSubdivisionCriterion.hxx: Compute", "include/itkEdgeLengthTriangleEdgeCellSubdivisionCriterion.hxx: Compute", "include/itkTriangleCellSubdivisionQuadEdgeMeshFilter.hxx: GenerateOutputCells", "include/itkTriangleEdgeCellSubdivisionQuadEdgeMeshFilter.hxx: GenerateOutputPoints"]}
{"id": "C89", "title": "The end of Loop subdivision is known before it starts", "statement": "Let the iterative filter with LoopTriangleCellSubdivisionQuadEdgeMeshFilter refine the whole mesh n times. Take an inner point p whose k neighbours add up to s, and lambda = (3/8 + cos(2 pi/k)/4)^2. Its limit is (3/8 p + (5/8 - lambda)/k s)/(1 - lambda), and its position after n levels is exactly limit + lambda^n (p - limit); lambda is at most 25/64. A point p of the boundary with the neighbours a and b along the boundary has the limit 2/3 p + a/6 + b/6, and its position after n levels is limit + (p - limit)/4^n. Round an inner point the sums of the neighbours with the weights cos(2 pi i/k + phi) keep their directions over all levels and shrink by the factor 3/8 + cos(2 pi/k)/4 each time, so the tangent plane of the limit can be read off the input mesh.", "quantifier": "For every valid mesh without isolated points, every inner and every boundary point, every number of neighbours, every number of levels, every phase.", "why_tests_cant": "The number of levels is not bounded and the limit is reached by no run; a test sees a handful of levels, with rounding, on one mesh, and the size of the mesh grows by four with every level.", "anchors": ["include/itkLoopTriangleCellSubdivisionQuadEdgeMeshFilter.hxx: AddNewCellPoints", "include/itkLoopTriangleCellSubdivisionQuadEdgeMeshFilter.hxx: CopyInputMeshToOutputMeshPoints, SmoothingPoint", "include/itkIterativeTriangleCellSubdivisionQuadEdgeMeshFilter.hxx: GenerateData"]}
{"id": "C90", "title": "Data at the points is kept", "statement": "If the input mesh has data at its points (SetPointData), the points that a filter keeps still have that data in the output; and the data has no influence on what the filter does.", "quantifier": "For every mesh, valid or not, every data, every selection, criterion and history, every cell, edge, iterative and conditional filter.", "why_tests_cant": "No test looks at point data; a test can only look at a few meshes, filters and histories, and not at all data.", "anchors": ["include/itkTriangleCellSubdivisionQuadEdgeMeshFilter.hxx: GenerateOutputPoints", "include/itkTriangleCellSubdivisionQuadEdgeMeshFilter.hxx: GenerateOutputCells", "include/itkTriangleEdgeCellSubdivisionQuadEdgeMeshFilter.hxx: GenerateOutputPoints", "include/itkIterativeTriangleCellSubdivisionQuadEdgeMeshFilter.hxx: GenerateData", "include/itkConditionalSubdivisionQuadEdgeMeshFilter.hxx: GenerateData", "include/itkLoopTriangleCellSubdivisionQuadEdgeMeshFilter.hxx: CopyInputMeshToOutputMeshPoints, SmoothingPoint", "include/itkLoopTriangleEdgeCellSubdivisionQuadEdgeMeshFilter.hxx: CopyInputMeshToOutputMeshPoints, AverageOriginOfEdge"]}
{"id": "C91", "title": "Filters that read the same mesh do not disturb each other", "statement": "When several filters read the input mesh, or the output of the same filter, then after any calls on any of them the next Update() of any filter gives the same mesh or the same failure as running the filters on the way to it, with the settings and the input asked for, one after the other. What a program does with the other filters, and when it calls Update() of which of them, makes no difference to it. A filter that has been updated for one of its readers is not executed again for another. (False if the shared filter is a cell filter with a list: after one reader has been updated and the input touched, the update of the other can have undefined behaviour.)", "quantifier": "For every pipeline that branches, of any depth and width, of cell and edge filters without lists, iterative and conditional filters; every sequence of calls at any places; every mesh.", "why_tests_cant": "Depends on the order of calls on several objects and on time stamps they share; the tests run one filter once.", "anchors": ["include/itkIterativeTriangleCellSubdivisionQuadEdgeMeshFilter.hxx: GenerateData", "include/itkConditionalSubdivisionQuadEdgeMeshFilter.hxx: GenerateData", "include/itkTriangleCellSubdivisionQuadEdgeMeshFilter.hxx: SetCellsToBeSubdivided"]}
{"id": "C92", "title": "Two uniform SquareThree levels are one ternary split", "statement": "After two SquareThree levels without a list every triangle of the mesh has become nine, and every edge between two triangles a path of three edges between the same ends: the new mesh is the one that cuts each such edge into three parts, adds a point in the middle of each triangle and joins them in the obvious way. Edges at the rim stay, with one new point beside them. The middle points are the centroids; the point of the inner edge ab near a is (5a + 2b + c + d)/9 with the opposite corners c and d, a third of the way exactly if the two triangles make a parallelogram; the point at a rim edge is (4a + 4b + c)/9. Any even number 2k of levels is k such splits.", "quantifier": "For every valid mesh, closed or with a rim, every even number of levels and every place of the points.", "why_tests_cant": "The tests look at the output of one number of levels for one mesh; the structure of two levels together for all meshes is not something they can see.", "anchors": ["include/itkSquareThreeTriangleCellSubdivisionQuadEdgeMeshFilter.hxx: GenerateOutputCells", "include/itkSquareThreeTriangleCellSubdivisionQuadEdgeMeshFilter.hxx: AddNewCellPoints", "include/itkIterativeTriangleCellSubdivisionQuadEdgeMeshFilter.hxx: GenerateData"]}
{"id": "C93", "title": "In machine arithmetic the adaptive Linear refinement by edge length ends, if the maximum is well above the rounding errors and only then", "statement": "With the Linear edge filter and the length criterion, Update() of the conditional filter returns when midpoints and distances are computed with errors up to kappa and the maximum L is at least 50 kappa: within n iterations if no edge of the input is longer than (10/9)^n (49/50) L. The output is valid, keeps the points of the input, has no edge longer than L as computed and none longer than 51/50 L in fact. Below that it need not return: if the mesh has an edge between two machine positions whose computed midpoint is one of the two, and the edge is longer than L, it never does.", "quantifier": "For every valid mesh, every number of iterations, every machine arithmetic with bounded errors (double is one), and every maximum.", "why_tests_cant": "A test runs with one mesh and one maximum; that no combination above the bound loops forever, and that every one below it with such an edge does, is a statement about all of them (a test that waits forever does not report).", "anchors": ["include/itkConditionalSubdivisionQuadEdgeMeshFilter.hxx: GenerateData", "include/itkLinearTriangleEdgeCellSubdivisionQuadEdgeMeshFilter.hxx: AddNewEdgePoints", "include/itkEdgeLengthTriangleEdgeCellSubdivisionCriterion.hxx: Compute"]}
{"id": "C94", "title": "In machine arithmetic the adaptive Linear refinement by area ends, if the maximum is well above the rounding errors and only then", "statement": "With the Linear cell filter and the area criterion, Update() of the conditional filter returns when midpoints are computed with errors up to kappa, areas with errors up to alpha, points stay in a ball of radius R, and the maximum A is at least 3 alpha + 6 kappa R: within n iterations if no triangle of the input is larger than 2^n (A - alpha). The output is valid, keeps the points of the input, has no triangle larger than A as computed and none larger than A + alpha in fact. Below that it need not return: if the corners of a triangle are pairwise machine positions whose computed midpoint is one of the two, and the triangle is larger than A, it never does.", "quantifier": "For every valid mesh, every number of iterations, every machine arithmetic with bounded errors (double is one), and every maximum.", "why_tests_cant": "A test runs with one mesh and one maximum; that no combination above the bound loops forever, and that every one below it with such a triangle does, is a statement about all of them (a test that waits forever does not report).", "anchors": ["include/itkConditionalSubdivisionQuadEdgeMeshFilter.hxx: GenerateData", "include/itkLinearTriangleCellSubdivisionQuadEdgeMeshFilter.hxx: AddNewCellPoints", "include/itkCellAreaTriangleCellSubdivisionCriterion.hxx: Compute"]}
{"id": "C95", "title": "Noise in the positions of the input is not amplified", "statement": "If two meshes differ only in the positions of their points, and no position by more than delta, then the outputs of a filter differ only in the positions, and no position by more than delta for Linear, Loop and SquareThree, with any selection, any number of levels; for Butterfly by at most (3/2)^levels delta, and the factor 3/2 is reached. (Loop: the boundary does not touch itself.) The conditional filters promise nothing of the kind: for every threshold and every delta > 0 there are two such meshes for which the outputs have different edges.", "quantifier": "For every mesh the filters accept, every way to move its points by at most delta, every delta, every selection and every number of levels.", "why_tests_cant": "A test perturbs one mesh in a few ways and compares; a bound for every perturbation of every mesh, independent of the number of levels, cannot be sampled.", "anchors": ["include/itkLinearTriangleCellSubdivisionQuadEdgeMeshFilter.hxx: AddNewCellPoints", "include/itkLoopTriangleCellSubdivisionQuadEdgeMeshFilter.hxx: SmoothingPoint", "include/itkLoopTriangleCellSubdivisionQuadEdgeMeshFilter.hxx: AddNewCellPoints", "include/itkModifiedButterflyTriangleCellSubdivisionQuadEdgeMeshFilter.hxx: AddNewCellPoints", "include/itkSquareThreeTriangleCellSubdivisionQuadEdgeMeshFilter.hxx: AddNewCellPoints", "include/itkIterativeTriangleCellSubdivisionQuadEdgeMeshFilter.hxx: GenerateData", "include/itkConditionalSubdivisionQuadEdgeMeshFilter.hxx: GenerateData"]}
{"id": "C96", "title": "Refining two parts one after the other or together", "statement": "If no triangle has edges of both parts, then refining one part and after that, in the result, the cells of the other gives the same mesh as one run with both selections: for Linear, cell filter and edge filter, the very same mesh (points with ids and positions, cells with ids and data, edges, rings), even in rounded arithmetic; for Loop and Butterfly, also mixed, everything but the positions. For SquareThree it is enough that the parts have no edge in common. The cells of the second part are still there to be selected after the first run. The same holds for any number of parts; with Linear their order does not matter either: the triangles, their positions and their order in the output are the same. For the other schemes, if a triangle lies between the parts, with an edge of each, the triangles of the two outputs may differ.", "quantifier": "For every mesh the filters accept, every two selections (or lists of edges) such that no triangle has edges of both (SquareThree: that have no edge in common), every history of the filter objects and every arithmetic.", "why_tests_cant": "Users refine regions one by one as they find them, or collect them first. A test compares the two for one mesh; that the order never matters, ids and data included, is a statement about all meshes and all pairs of regions.", "anchors": ["include/itkTriangleCellSubdivisionQuadEdgeMeshFilter.hxx: GenerateOutputPoints", "include/itkTriangleCellSubdivisionQuadEdgeMeshFilter.hxx: GenerateOutputCells", "include/itkTriangleEdgeCellSubdivisionQuadEdgeMeshFilter.hxx: GenerateOutputPoints", "include/itkLinearTriangleCellSubdivisionQuadEdgeMeshFilter.hxx: AddNewCellPoints"]}
{"id": "C97", "title": "Cell data is carried, not interpreted", "statement": "The filters copy cell data and never look at it. Replacing every value by what some function makes of it, maybe of another type, gives the same output with that function applied to its data; and meshes that agree but for their data give outputs that agree but for their data. Failures and the members of the filter objects are the same. A filter whose output mesh has another type of cell data converts the value of each output cell once; converting before or after the run gives the same.", "quantifier": "For every mesh (also those the filters do not accept), every function on the data, every selection, history, number of levels, threshold and arithmetic.", "why_tests_cant": "Cell data are user types: labels, material records, vectors. A test uses one type with a few values; that nothing depends on the type or the values, for all of them, only a proof can tell.", "anchors": ["include/itkTriangleCellSubdivisionQuadEdgeMeshFilter.hxx: PassCellData", "include/itkTriangleCellSubdivisionQuadEdgeMeshFilter.hxx: GenerateOutputCells", "include/itkSquareThreeTriangleCellSubdivisionQuadEdgeMeshFilter.hxx: GenerateOutputCells"]}
{"id": "C98", "title": "In machine arithmetic the adaptive Loop refinement by edge length ends, if the maximum is well above the rounding errors and, for open meshes, only then", "statement": "With the Loop edge filter and the length criterion, Update() of the conditional filter returns when new points (sums of two or four weighted points, added in the order of the code) and distances are computed with errors up to kappa and the maximum L is at least 50 kappa: within n iterations if no edge of the input is longer than (20/19)^n (49/50) L. The output is valid, keeps the points of the input, has no edge longer than L as computed and none longer than 51/50 L in fact. Below that it need not return: if the mesh has a boundary edge between two machine positions whose computed midpoint is one of the two, and the edge is longer than L, it never does.", "quantifier": "For every valid mesh without isolated points, every number of iterations, every machine arithmetic with bounded errors (double is one), and every maximum.", "why_tests_cant": "A test runs with one mesh and one maximum; that no combination above the bound loops forever is a statement about all of them (a test that waits forever does not report).", "anchors": ["include/itkConditionalSubdivisionQuadEdgeMeshFilter.hxx: GenerateData", "include/itkLoopTriangleEdgeCellSubdivisionQuadEdgeMeshFilter.hxx: AddNewEdgePoints", "include/itkEdgeLengthTriangleEdgeCellSubdivisionCriterion.hxx: Compute"]}
{"id": "C99", "title": "The links inside a mesh do not show in the results", "statement": "Two meshes that differ in their links only (which edge is stored at a point, in which order the edges around a point are linked) give outputs that differ in their links only: the same points in the same order, the same cells, cell data, edges and recorded cells. This holds for the cell filters, the edge filters, the iterative filter over all levels and the conditional filter over all rounds, also if the two runs use different mesh libraries. Linear and SquareThree do not read the links at all and agree on every mesh, with the same failure if they fail. Butterfly needs a boundary that does not touch itself; where three pieces of a mesh hang together at one point only, its new points do depend on the links.", "quantifier": "For every valid mesh with links that obey the ring laws (Linear, SquareThree: every mesh), every selection, every pair of lawful libraries, every number of levels and rounds; refuted for Butterfly where the boundary touches itself.", "why_tests_cant": "The links are private to the mesh library and a test has one library that links a given mesh in one way; independence of them is a comparison of runs that one program cannot make.", "anchors": ["include/itkLoopTriangleCellSubdivisionQuadEdgeMeshFilter.hxx: SmoothingPoint", "include/itkLoopTriangleCellSubdivisionQuadEdgeMeshFilter.hxx: AddNewCellPoints", "include/itkModifiedButterflyTriangleCellSubdivisionQuadEdgeMeshFilter.hxx: AddNewCellPoints", "include/itkLoopTriangleEdgeCellSubdivisionQuadEdgeMeshFilter.hxx: AddNewEdgePoints", "include/itkModifiedButterflyTriangleEdgeCellSubdivisionQuadEdgeMeshFilter.hxx: AddNewEdgePoints", "include/itkIterativeTriangleCellSubdivisionQuadEdgeMeshFilter.hxx: GenerateData", "include/itkConditionalSubdivisionQuadEdgeMeshFilter.hxx: GenerateData"]}
{"id": "C100", "title": "Uniform subdivision loses nothing: the coarse mesh can be recovered from the refined one", "statement": "If a uniform run makes the same points and the same triangles from two meshes, then the two meshes had the same points and the same triangles (SquareThree: the same triangles up to order and first corner). This holds for all four cell filters, the three edge filters with an empty list, and for any number of levels of the iterative filter. For Loop, which moves every point, the old place of a point is given by an explicit formula from its new place, its new neighbours and their number.", "quantifier": "For every pair of valid meshes (Loop: real coordinates, boundary that does not touch itself), every pair of mesh libraries, every number of levels.", "why_tests_cant": "It compares the preimages of one output among all meshes; a test sees one input for each output.", "anchors": ["include/itkLinearTriangleCellSubdivisionQuadEdgeMeshFilter.hxx: AddNewCellPoints", "include/itkModifiedButterflyTriangleCellSubdivisionQuadEdgeMeshFilter.hxx: AddNewCellPoints", "include/itkLoopTriangleCellSubdivisionQuadEdgeMeshFilter.hxx: SmoothingPoint", "include/itkLoopTriangleCellSubdivisionQuadEdgeMeshFilter.hxx: AddNewCellPoints", "include/itkSquareThreeTriangleCellSubdivisionQuadEdgeMeshFilter.hxx: AddNewCellPoints", "include/itkTriangleEdgeCellSubdivisionQuadEdgeMeshFilter.hxx: GenerateOutputPoints", "include/itkSubdivisionQuadEdgeMeshFilter.hxx: GenerateData", "include/itkIterativeTriangleCellSubdivisionQuadEdgeMeshFilter.hxx: GenerateData"]}
{"id": "C101", "title": "ModifiedButterfly leaves the box of its input by a bounded amount", "statement": "Of the four schemes only ModifiedButterfly leaves the convex hull of the input (C20). In every direction (every coordinate, every affine function) a run goes beyond the extent of the input by at most a quarter of it on each side, at the boundary too, with any selection, cell filter or edge filter, and the quarter is reached. L levels, and L iterations of a conditional filter, make the extent at most (3/2)^L times as long. In uniform runs on closed meshes no point is further from the convex hull of the input than a quarter of the longest edge after one level, and than twice the longest edge after any number of levels.", "quantifier": "For every valid mesh with links that obey the ring laws, every affine function, every selection and list of edges, every number of levels and rounds; the bounds by the longest edge for closed meshes and uniform runs.", "why_tests_cant": "A bound for all coordinates, stencils and numbers of levels; a test has particular ones, and the extreme case needs a particular arrangement of eight points.", "anchors": ["include/itkModifiedButterflyTriangleCellSubdivisionQuadEdgeMeshFilter.hxx: AddNewCellPoints", "include/itkModifiedButterflyTriangleEdgeCellSubdivisionQuadEdgeMeshFilter.hxx: AddNewEdgePoints", "include/itkIterativeTriangleCellSubdivisionQuadEdgeMeshFilter.hxx: GenerateData", "include/itkConditionalSubdivisionQuadEdgeMeshFilter.hxx: GenerateData"]}
{"id": "C102", "title": "With coordinates on a coarse enough grid the machine result is exact", "statement": "If the coordinates of the input are on a grid (for instance integers, or multiples of some power of two) and the machine numbers have digits to spare, then Linear, ModifiedButterfly and the Loop edge filter make no rounding error at all: the output of the run in machine arithmetic is, as a mesh, the output of the run in exact arithmetic. A level needs one more binary digit after the point for Linear, three for the Loop edge filter, four for ModifiedButterfly, and the sums on the way reach at most 2, 2 and 3/2 times the size of the points. So with integer coordinates up to 4 eight levels of ModifiedButterfly in double are exact. The same does not hold for SquareThree, which divides by 3.", "quantifier": "For every machine arithmetic that makes no error when the exact result of an operation is on the refined grid and not too large (nothing is asked of other operations), every valid mesh, selection, list of edges and number of levels; the cell filters and the iterative filter for Linear and ModifiedButterfly, the edge filters for Linear, Loop and ModifiedButterfly.", "why_tests_cant": "Tests compare with expected coordinates up to a tolerance; that no operation of any run rounds is a statement on all stencils at all levels.", "anchors": ["include/itkLinearTriangleCellSubdivisionQuadEdgeMeshFilter.hxx: AddNewCellPoints", "include/itkModifiedButterflyTriangleCellSubdivisionQuadEdgeMeshFilter.hxx: AddNewCellPoints", "include/itkLinearTriangleEdgeCellSubdivisionQuadEdgeMeshFilter.hxx: AddNewEdgePoints", "include/itkLoopTriangleEdgeCellSubdivisionQuadEdgeMeshFilter.hxx: AddNewEdgePoints", "include/itkModifiedButterflyTriangleEdgeCellSubdivisionQuadEdgeMeshFilter.hxx: AddNewEdgePoints", "include/itkIterativeTriangleCellSubdivisionQuadEdgeMeshFilter.hxx: GenerateData"]}
{"id": "C103", "title": "Labelled parts of a surface stay where they are, and densities keep their totals", "statement": "With cell data as labels (a segmentation), the part of the surface with a given label is the same set of points before and after a Linear run, cell filter or edge filter, with any selection, over any number of levels; so is the part without data. Every quantity that adds up over triangles and depends on the data too keeps its total: the area of each label, or the integral of a density given as cell data. In uniform runs of Linear, Loop and ModifiedButterfly each label has four times as many cells after a level. SquareThree does not do so: it turns the edges between labels, and the label of the smaller cell id spreads across them.", "quantifier": "For every valid mesh with any cell data (complete, in part, or none), every selection and list of edges, every number of levels, every label and every additive quantity. Not for the conditional filter, which drops cell data (C46).", "why_tests_cant": "The region of a label is an infinite set of points and the statement is on all meshes, labellings and additive quantities; a test can compare a few sums.", "anchors": ["include/itkTriangleCellSubdivisionQuadEdgeMeshFilter.hxx: GenerateOutputCells", "include/itkLinearTriangleCellSubdivisionQuadEdgeMeshFilter.hxx: AddNewCellPoints", "include/itkLinearTriangleEdgeCellSubdivisionQuadEdgeMeshFilter.hxx: AddNewEdgePoints", "include/itkIterativeTriangleCellSubdivisionQuadEdgeMeshFilter.hxx: GenerateData", "include/itkSquareThreeTriangleCellSubdivisionQuadEdgeMeshFilter.hxx: GenerateOutputCells"]}
{"id": "C104", "title": "The boundary stays, or gets no longer", "statement": "The boundary of a mesh with holes or open ends is the same set of points before and after a run of the Linear or the SquareThree cell filter or of the Linear or the Loop edge filter, with any selection, over any number of levels and in the conditional filter when it returns. A boundary curve with n edges becomes in L uniform levels one with 2^L n edges (for SquareThree n): as long for Linear and SquareThree, and not longer for Loop.", "quantifier": "For every valid mesh with points in any inner product space, every selection and list of edges, every number of levels and maximum; lengths for uniform levels, and for Loop with a boundary that does not touch itself. Not for ModifiedButterfly, whose boundary depends on the rest of the mesh (C51, C80).", "why_tests_cant": "Sets of points and lengths over all meshes and all numbers of levels; a test measures a few curves, to within rounding.", "anchors": ["include/itkLinearTriangleCellSubdivisionQuadEdgeMeshFilter.hxx: AddNewCellPoints", "include/itkLoopTriangleCellSubdivisionQuadEdgeMeshFilter.hxx: AddNewCellPoints", "include/itkLinearTriangleEdgeCellSubdivisionQuadEdgeMeshFilter.hxx: AddNewEdgePoints", "include/itkLoopTriangleEdgeCellSubdivisionQuadEdgeMeshFilter.hxx: AddNewEdgePoints", "include/itkIterativeTriangleCellSubdivisionQuadEdgeMeshFilter.hxx: GenerateData", "include/itkConditionalSubdivisionQuadEdgeMeshFilter.hxx: GenerateData", "include/itkSquareThreeTriangleCellSubdivisionQuadEdgeMeshFilter.hxx: GenerateOutputCells"]}
{"id": "C105", "title": "Refining more never gives less", "statement": "If a second run on the same mesh selects all cells that a first run selects (or the whole mesh), and goes over at least as many levels, then its output has at least as many points, edges and cells. With Linear no point is lost: each point of the smaller output is a point of the larger one, at exactly the same place, and different points are different ones; the same for one run of the edge filters and a second list that names all edges of the first, and (on closed meshes) for one run of ModifiedButterfly. The size of a SquareThree refinement is known before: s selected cells become 3^L s cells in L levels, the other cells stay cells, and there are s + 3 s + ... + 3^(L-1) s new points.", "quantifier": "For all four schemes, every valid mesh, every two selections of which the second names all cells of the first, in any order, all numbers of levels, and any history of the objects for single runs. With repetitions in the selections for Linear, Loop and ModifiedButterfly, without for SquareThree (C41) and for lists of edges, where an edge named three times gives three points. The edge filter ModifiedButterfly loses no point on closed meshes; elsewhere its points depend on the direction in which an edge is named.", "why_tests_cant": "The two runs number their points differently and cut the surroundings of the selection differently, so outputs cannot be compared index by index; the statement is on all pairs of selections and all numbers of levels.", "anchors": ["include/itkTriangleCellSubdivisionQuadEdgeMeshFilter.hxx: GenerateOutputCells", "include/itkLinearTriangleCellSubdivisionQuadEdgeMeshFilter.hxx: AddNewCellPoints", "include/itkLoopTriangleCellSubdivisionQuadEdgeMeshFilter.hxx: AddNewCellPoints", "include/itkModifiedButterflyTriangleCellSubdivisionQuadEdgeMeshFilter.hxx: AddNewCellPoints", "include/itkIterativeTriangleCellSubdivisionQuadEdgeMeshFilter.hxx: GenerateData", "include/itkLinearTriangleEdgeCellSubdivisionQuadEdgeMeshFilter.hxx: AddNewEdgePoints", "include/itkLoopTriangleEdgeCellSubdivisionQuadEdgeMeshFilter.hxx: AddNewEdgePoints"]}
{"id": "C106", "title": "The id of a cell tells where it comes from", "statement": "Output cells are numbered 0, 1, 2, \u2026 without gaps, and in the order of the input cells: there is an assignment of output cells to input cells that never goes down, reaches every input cell, and keeps the data. Without a selection it is a division: after L levels the cell with the id k is a piece of the input cell at place k / 4^L, and in one level the cells 4i, 4i+1, 4i+2 are the pieces at the first, second and third corner of cell i, and 4i+3 the one in the middle. For Linear the pieces assigned to a cell are exactly that cell, as sets of points.", "quantifier": "For the face splits (Linear, Loop, ModifiedButterfly), cell and edge filters, every valid mesh, every selection or edge list, every number of levels, every cell data; with Linear also for the conditional filters, where only the data is lost. Not for SquareThree, which turns edges, so that a triangle belongs to two input cells.", "why_tests_cant": "Programs that keep arrays beside a mesh rely on this for every mesh; a test on some meshes compares some ids, and the place of a piece in a selective run depends on how all cells before it are cut.", "anchors": ["include/itkTriangleCellSubdivisionQuadEdgeMeshFilter.hxx: GenerateOutputCells, SplitTriangleFrom*", "include/itkTriangleEdgeCellSubdivisionQuadEdgeMeshFilter.hxx: GenerateOutputPoints", "include/itkIterativeTriangleCellSubdivisionQuadEdgeMeshFilter.hxx: GenerateData"]}
