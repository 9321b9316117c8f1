# Formal model of ITKSubdivisionQuadEdgeMeshFilter

## 1. What is modelled

All of `/repo/include`, function by function, in `lean/Verif/Model`:

| Lean file | C++ |
|---|---|
| `Model/Basic.lean` | outcomes (return / exception / undefined behaviour / never returns), loops, `itk::MapContainer` |
| `Model/Mesh.lean` | contract of `itk::QuadEdgeMesh` (dependency, not in /repo) |
| `Model/CellFilter.lean` | `itkSubdivisionQuadEdgeMeshFilter`, `itkTriangleCellSubdivisionQuadEdgeMeshFilter` |
| `Model/Schemes.lean` | Linear, Loop, ModifiedButterfly, SquareThree cell filters |
| `Model/EdgeFilters.lean` | `itkTriangleEdgeCellSubdivisionQuadEdgeMeshFilter` and the Linear, Loop, ModifiedButterfly edge filters |
| `Model/Drivers.lean` | Iterative filter, Conditional filter, CellArea and EdgeLength criteria |
| `Model/Print.lean` | `PrintSelf` of all filters |
| `Model/Criterion.lean` | the Conditional filter with a criterion of the user's own, which may have members that change |
| `Model/TwoTypes.lean` | the filters with different coordinate types of input and output mesh |
| `Model/TwoData.lean` | the same with different types of cell data as well |
| `Model/Pipeline.lean`, `Model/PipelineEdge.lean` | whether `Update()` executes: time stamps of the ITK pipeline (dependency) and the calls of `Modified()` in /repo |
| `Model/Chain.lean` | the same for filters in a row, and the `Update()` of the inner filter in the iterative filter that reaches the filters before it |
| `Model/Tree.lean` | the same for pipelines that branch: any number of filters read the output of a filter |

A member function is a total function `state → outcome × state`; the state is the members of the filter object and the
output mesh.  The state survives an exception, as members of the C++ object do.  Undefined behaviour (null
dereference, `GetElement` of an absent key, read of a variable never written) is an outcome of its own.

Loops that `continue` without advancing the iterator are written literally with fuel (`cursorLoop`) and as a total
function with the outcome `hang` (`loopOrHang`); the agreement of the two is proved.
The conditional filter's `while` loop is written with fuel (`condLoop`); theorems speak about all amounts of fuel.

### Not modelled
* rounding of weights, in most theorems: the weights of the stencils are exact elements of a field.  Points are any type with a
  zero, an addition and a scaling, and sums are added in the order of the code.  Theorems that do not speak about positions assume
  no law of these operations, so that they hold for `double` and `float` points too; theorems about positions (C07–C10, C12,
  C19–C21, C27, C32, C33, C38, C40, C45, C50, C51 and others) assume a vector space, i.e. exact arithmetic.  C66 connects the two:
  it bounds the distance between a run in rounded arithmetic, weights included, and the exact run.  The bits of `double` are not
  modelled: C66 assumes error bounds of the operations, and shows that rounding to 53 binary digits meets them (without the
  limits of the exponent).  C93 and C94 show when the adaptive Linear refinement ends in rounded arithmetic, and when it does not;
* overflow of 64-bit identifiers (SquareThree uses the largest identifier as a mark: theorems that need it assume
  that there are fewer points than that);
* the pipeline in most files: `Model/Pipeline.lean` has one filter and an input mesh without a source, `Model/Chain.lean` any
  number of filters in a row, `Model/Tree.lean` any tree of filters.  In all other files each modelled `Update` executes;
* `PrintSelf` of ITK's base classes, run-time type information, the test drivers and wrapping files.

## 2. Trusted base
* Lean kernel, with at most the axioms `propext`, `Classical.choice`, `Quot.sound`; `AXIOMS.md` lists those of each theorem.
* The reading of the C++ as the definitions above; each carries the file and lines it models.
* The contract of ITK in `Model/Mesh.lean`:
  * an edge pointer is a pair (origin, destination), `FindEdge`, `GetSym`, `GetLeft`, `IsInternal`, `IsAtBorder`;
  * `AddFaceTriangle` returns null when ids coincide, a point is missing, a directed edge already has a left
    face, or an edge has to be created at a point whose edges all have faces on both sides; else it adds the face
    under the next free id, sets the left faces and returns an edge with that left face;
  * the order of edges around points is *not* computed: it is the parameter `QELib`, and theorems that navigate a mesh
    assume the ring laws (`RingOK`: `Onext` permutes the edges at a point in one cycle, `Oprev` is its inverse, and
    walks around the left face of a triangle).  That the laws can be met for every valid mesh is proved;
  * `CopyInputMeshToOutputMeshPoints` / `…Geometry`, `SetPoint`, `SetCellData`, `GraftOutput`; in particular
    `MapContainer::Reserve(n)` creates the entries 0…n-1, and `CopyInputMeshToOutputMeshGeometry` copies points, edges and
    faces (renumbered 0, 1, …) but no cell data and no point data;
  * `TriangleHelper::ComputeArea` and `ComputeEdgeLength` are parameters; theorems about real areas and lengths name what
    they assume of them.
* The contract of the ITK pipeline in `Model/Pipeline.lean`: a filter executes when the output's update time is older than the
  latest time of the filter and its input, or when the pipeline asks again because the requested region is outside the
  buffered region.  Whether the latter happens for meshes depends on ITK internals, so that it is a parameter (`again`), and
  theorems say for which values they hold.  In the iterative and conditional filters the inner filters get the outer output as
  input; the loop in the pipeline may call `Modified()` of the outer filter during a run (`touch`, also arbitrary).
  `Model/Chain.lean` adds the recursion through the filters before (`UpdateOutputInformation`, `UpdateOutputData`), the new
  modification time that `DataHasBeenGenerated` gives an output, and the second update of the input by the iterative filter.

## 3. Specification (`lean/Verif/Spec`)
Written without the helpers of the model: triangles as triples of point ids, directed edges, `GoodTris` (a list of
triangles is a valid oriented surface), `Mesh.Valid`, ring laws, and per property its own small definitions.

`Mesh.Valid`: points numbered 0…n-1; every cell a triangle on existing points; no degenerate triangle; each directed
edge in at most one triangle; no two triangles on the same three points; if the triangles around a point contain a
closed fan, that fan is everything at that point (i.e. no closed fan has another sheet attached at its centre); the edge
structures of the mesh are those of its triangles.

Other specification files: `Topology` (Euler characteristic, boundary), `FaceSplit`, `Sqrt3` (children), `Run` (what a scheme
needs of its input), `History`, `Pipeline`, `Chain` (calls on objects), `Affine`, `Hull`, `Geometry`, `Coords` (positions), `Iterative`,
`Criteria`, `Mixed` (meshes with other cells), `Gaps` (ids with gaps), `Shape` (a mesh without coordinates), `Similar` (cut and scaled triangles), `Rim` (boundary curves), `Linked` (connected pieces),
`Links` (a mesh without the links between its edges), `Valence` (triangles at a point), `Superpose` (mixtures of positions), `Support` (which points a point depends on), `Converge` (lengths of edges), `Fans` (triangles beside the refined part), `Rounding` (machine
arithmetic), `TwoTypes` (conversion of positions), `Sliver` (flat triangles at the edge of the refined part), `Cost` (what is left to refine), `Trap` (ten triangles that return), `RimIn` (boundary curves inside a set), `Flat` (meshes in a plane), `Embedded` (surfaces that do not meet themselves), `OwnCriterion` (what a criterion of the user's own has to do), `Size` (the predicted size of an adaptive refinement), `Print` (what a reader of a stream sees), `Fat` (area against sides, and angles), `Limit` (the neighbours of a point, and the limits of Loop), `PointData`, `Tree` (calls on a tree of filters), `Ternary` (ternary split), `Grid` (regular grids), `Measured` (midpoints and lengths in machine arithmetic), `Data` (a mesh with other data, or without), `Undo` (meshes with the same points and triangles), `Bulge` (how far a surface reaches), `Exact` (machine arithmetic that is exact on a grid), `Labels` (cell data as labels), `RimLength` (the boundary as a set, and its length), `More` (when one run refines more than another), `Family` (which output cells are pieces of which input cell).

## 4. Proof plan
* **Build** (`Proofs/Build.lean`): adding the triangles of a good list one by one to an empty mesh always succeeds and
  produces exactly that list.  Induction over prefixes; a refusal of `AddFaceTriangle` at a closed point contradicts
  the fan condition.
* **Children** (`Proofs/Children*.lean`): replacing the triangles of a good list by their children for any labelling of
  edges with new points (symmetric, injective on edges, fresh) gives a good list.
* **Points** (`Proofs/Points.lean`): the point phase of each scheme produces such a labelling: invariant with the ghost
  list of split edges.
* **Refinement** (`Proofs/FaceSplit.lean`): `Update` of the cell and edge filters yields exactly the points and the
  children lists given by that labelling.  All properties of the face-split filters are consequences.
* **SquareThree** (`Proofs/Sqrt3*.lean`): the same with the emission list of the flip algorithm.
* **Geometry** (`Proofs/Geometry.lean`): identities of stencils, convexity, areas and lengths over ℝ.
* **Drivers**: induction over levels / fuel with the invariants above; termination by a decreasing bound.

| Property | Approach |
|---|---|
| C01, C02, C03, C05 | refinement theorem + counting over the children lists |
| C04 | children theorem + build theorem |
| C06–C10, C12 | refinement theorem, point values as explicit stencils |
| C11, C13 | SquareThree refinement; good list |
| C14, C15, C16 | invariant of the emission: data and recorded ids by position |
| C17, C18 | counting of directed edges and boundary edges |
| C19 | simulation: the run on the mapped mesh is the mapped run |
| C20, C21 | convexity and area identities on stencils / children |
| C22, C26 | induction over levels (definition of iterated application is separate) |
| C23, C24 | induction with C01–C05, C11, C16 |
| C25 | the run depends on the members only through the selection; refuted for Loop with a concrete history |
| C27 | label functions for two lists differ by a renaming of the new ids |
| C28, C29 | induction over the container |
| C30, C31 | induction over fuel; copy is the identity on numbered meshes |
| C32, C33 | potential: largest area / largest squared length |
| C34 | refuted: for every fuel the loop has not ended |
| C35, C36, C37, C38, C41, C42 | false of the code: refutation, in general where possible, plus the positive part that does hold (`_partial`) |
| C39, C40 | refinement theorem for edge lists |
| C43 | direct computation |
| C44 | simulation of two runs with the same list (`Proofs/EdgeAlike.lean`) |
| C45 | simulation of the run on the renumbered mesh (`Proofs/Rename*.lean`); also used for isolated points (C37) and gaps (C38). Inductions over levels and rounds in `Proofs/NumberingRuns.lean`: the criteria choose the same cells and the renamed edges, and where the boundary does not touch itself the ring laws force the same cyclic order |
| C46 | Hoare triples: no data in, no data out; the copy of the geometry has no data |
| C47 | invariant "valid descendant of the input" over the loop |
| C49 | simulation by the mesh whose points have no coordinates (`Proofs/Shape.lean`) |
| C50 | induction over levels with C06, C07; identities of scaled copies (`Proofs/Similar.lean`); regular grids: each cell of the grid is cut into four of the next, told apart by parities (`Proofs/Grid.lean`) |
| C51 | induction over levels (`uniform_levels`) with C06-C08, C18 and the smoothing rule at the boundary; butterfly: counterexample (a triangle and a cup) |
| C52 | each child of a triangle stays with its parent: chains of triangles go over into chains (`Proofs/Linked.lean`) |
| C53 | counting the children with a given corner (`Proofs/Valence.lean`), induction over levels |
| C54 | the output as a fold over the children (`Proofs/Whole.lean`), so that equal children and points make equal meshes |
| C55 | same, and the comparison by positions of C27 |
| C56 | exceptions come from the point phase only, which writes neither list (`Proofs/Errors.lean`); rounds of the conditional filter as an inductive relation (`Spec/Errors.lean`) |
| C57 | a child on old points is the triangle itself, and every edge of a quarter has a new end, so the next selected cells touch no kept cell (`Proofs/Local.lean`); induction over levels |
| C58 | new points are renamed like their edges; the children of a cell, up to rotation, do not depend on its first corner unless there are three of them (`Proofs/ListingRun.lean`, `Proofs/ListingSqrt3.lean`); the scheme's points on two listings (`Proofs/Listing.lean`); induction over levels; conditional filters as for C77 with one piece; witness for the diagonal; for the conditional Loop cell filter two rounds are computed in the kernel, with a lawful library that computes its rings (`Proofs/CheckedLib.lean`, `Properties/CondLoopListing.lean`) |
| C59 | three cuts at midpoints and one change of diagonal give the four children (`Proofs/Volume.lean`); sum over the triangles; alternating forms for volume and vector area; the volume of a closed mesh does not depend on the apex, as its directed edges cancel in pairs; induction over levels and rounds |
| C60 | induction over the rounds with the exact selection of the criterion (`Proofs/CondExact.lean`): too large triangles are split into four, whose edges are all new; C57 for one round, C30 at the end |
| C61 | every child of a triangle has barycentric corners with a positive determinant (`Proofs/Normals.lean`); the vector area is multiplied by it; induction over levels and rounds |
| C62 | the stencils of C08, C09, C10 applied to monomials: identities in a module, closed by `module` (`Proofs/Regular.lean`); the parallelogram rule gives the parameters of the stencil points, the fans of a valid mesh the neighbours of a point |
| C63 | `Proofs/Mirror*.lean`, along the lines of C58 with the triangles turned over: the stencils are symmetric sums, the children of a turned triangle are the turned children unless there are three; symmetric surfaces by C19 and C58 (rotations) or turning over (reflections); the conditional filters in `Proofs/CondMirror.lean`, the two runs in step (false for the Loop cell filter: a run on a square, computed with `Proofs/CheckedLib.lean`) |
| C64 | `Proofs/Superpose.lean`: every stencil and loop of the model commutes with a map that keeps zero, sums and multiples, by the simulation of `Proofs/Sim.lean`; coordinates are projections, mixtures a map of pairs of positions |
| C65 | `Proofs/Support.lean`: each stencil reads points within reach of the edge; an edge of the output runs between points belonging to corners of one input triangle, so distances do not shrink over the levels |
| C66 | `Proofs/Stable.lean` (sets that the stencils do not leave), `Proofs/Rounding.lean`: the machine run and the exact run are the two halves of one run on pairs (C64); the set of pairs that are close grows by a known amount with each operation |
| C67 | `Spec/Converge.lean` (longest edge, factors), `Proofs/Shrink.lean`, `Proofs/ShrinkLevels.lean`: an output edge is written as a combination of input edges with small weights; for Loop the weights depend on the number of neighbours (`loop_inner_weights`); levels by a geometric sum, limits by completeness |
| C68 | `Spec/Fans.lean` (points outside the refined part, triangles beside it), `Proofs/Fans.lean`: one level on the relation of C24; children counted triangle by triangle |
| C69 | `Model/TwoTypes.lean`, `Spec/TwoTypes.lean`, `Proofs/TwoTypes.lean`: the run with two mesh types and the run with one side by side, related by the conversion (the simulation of C19); C06 and C66 for the corollaries |
| C70 | `Proofs/Sqrt3Area.lean`: a piece is a third of its triangle, or lies at a flipped edge and has sides at most two thirds as long; a triangle that is too large has had fewer than N thirds since the last flip and fewer than M flips; counting iterations by `i * N + j` |
| C71 | `Proofs/Sqrt3Normals.lean`: vector areas of the pieces by bilinearity; directed edges cancel in pairs, so the total depends on the boundary, which stays (C18); refuted for single triangles by two triangles of the plane |
| C72 | `Proofs/Chain.lean`: the latest time of anything an output depends on, and an invariant between it and the stamps; an output not older than that is what its filter gives for its settings and its input. `Proofs/ChainRuns.lean`: members stay as asked for, so the result of `Update()` equals that of the filters by hand; refuted for a list of cells in front of an iterative filter, whose own run updates its input again; without iterative filters each filter runs at most once (`Properties/ChainOnce.lean`), and the first `Update()` is right with any lists (`Properties/ChainFirst.lean`), later ones if input and lists are given anew (`Properties/ChainLists.lean`) |
| C73 | `Proofs/Sliver.lean`: at an edge with a refined triangle on one side only, a level replaces the third corner by the centre, and the next level finds the same situation; `lowered` is the closed form. With the area criterion the number of such steps is the least one that makes the area small enough |
| C74 | `Proofs/Settled.lean`: a mesh made by a filter from a mesh without cell data, and a mesh made by the copy, is its own copy (`Settled.copy`); this is kept by each pass, and C30 leaves nothing for the second filter to select |
| C75 | `Proofs/LoopLength.lean`: every new edge is at most nine tenths as long as the longest edge before; for the edge to the opposite corner this needs the parallelogram law, as the triangle has a side that is not split and is shorter than the one that is; counting iterations as in C33 |
| C76 | `Proofs/Cost.lean`: a level adds a triangle for each directed edge that is split, and these lie on a selected triangle or across from one; the triangles split into four that were not selected have three selected neighbours, so they are at most as many as the selected ones; after the first level there are none of these. `Proofs/CostArea.lean`: the sum of `4 a / A - 1` over the too large triangles falls by three for each triangle listed |
| C77 | C58's proofs are about a mesh and one that contains it as a piece (`PieceOf`): a new point of the piece has only neighbours in the piece (`Proofs/ListingRun.lean`, `Proofs/ListingSqrt3.lean`); every triangle of the output is in the piece exactly if its parent is; induction over levels (`Proofs/Pieces.lean`); a piece without selected triangles has no split edge (`Proofs/PiecesLeft.lean`); conditional filters: induction over the iterations, in which a piece that is done is a piece without selected triangles (`Proofs/CondPieces.lean`, `Proofs/CondPiecesEdge.lean`, `Properties/CondPieces.lean`) |
| C78 | false: a planar mesh of ten triangles is reproduced by each iteration, at the same place and in the same size, as a part of the new mesh (`Spec/Trap.lean`); the stencil of C10 keeps the points within their tolerances, also with the rounding errors of C66, and only the one triangle is too large (`Proofs/Trap.lean`); in space by C19 |
| C79 | false: from C09 the share of the way to the mean of the neighbours is `5/8 - (3/8 + c/4)²` with `c = cos(2π/N)`; the documented one, `1/4 - c²/4`, is smaller by at least 3/16 for every `c`, since `12(c - 1/2)² ≥ 0` |
| C80 | false for ModifiedButterfly: a run only links the point of a boundary edge with the two ends of that edge, so every boundary point of the output lies on the curve of an input point (`rimIn_step`); the new and the moved boundary points are convex combinations of points of that same curve for Linear, Loop and SquareThree. Witness against the butterfly: an octahedron without a face, standing on a plane with the rim of the hole |
| C81 | partly false: an affine map that vanishes on the plane and nowhere else sends the mesh to one point; by C19 it sends the output to the output for that one point, so it vanishes there too. Witness against the area: one flat triangle |
| C82 | partly false: the shares of a point in a piece give its shares in the parent triangle (`parentWeights`), and are found again from them (`sixPattern_unique`); two triangles that share a point share the edge it lies on, and the shares along an edge say on which half the point lies. Witnesses against the other schemes: two and three flat triangles |
| C83 | partly: closed meshes. While edges longer than 1.1 L exist the longest edge shrinks by 1/100 or more (halves and lines between new points by 1/4; lines from a new point to an opposite corner by the parallelogram law, for their triangle has a short side). Below 1.1 L two iterations are left: after the first, a triangle with a long side has a side of at most 0.825 L |
| C84 | whole: `Model/Criterion.lean` gives the criterion members of its own. Induction over the iterations as in C47, for any list of existing cells or edges; exceptions of the criterion are passed on. A number that goes down ends the loop; a list that is never cleared does not. "All cells, n times" compared with the iterative filter by C54 |
| C85 | whole: one iteration lowers the depth (the number of quarterings still needed) of every triangle by one; the predicted numbers of triangles and boundary edges do not change under that, triangle by triangle. The points follow from the Euler characteristic (C47) |
| C86 | fails: the flag shown is set by a run, not by the selection; the iterative filter writes its levels to `std::cout`. Proved: after every run on a valid mesh the flag is right, about this run and the next one; the number on the console determines the levels; the other filters write to the given stream only |
| C87 | whole: with the Linear filters, for any `q`. Each output triangle is a part of a triangle that was no longer subdivided itself; the number of levels in which such a part can still be cut for the sake of its neighbours is bounded by its shape, because all sides get shorter while the neighbours that are still too large have sides in proportion to the maximum. The exponents 3 and 5 are not claimed to be the best. With the length criterion there is also a bound proportional to `q` (`Proofs/FatLength.lean`): while two sides of a triangle are split and the third is not, the median on the third side, less a part that depends on the maximum alone (`medZ`), is halved in each level, and the area is divided by at most four; one more level follows |
| C88 | whole: with the Linear filters. Each triangle at a point is counted as often as its fan can still double; a triangle that is cut for the sake of its neighbours can double its fan only as long as its shape allows (C87; with the length criterion as often as the median can be halved). Contrast with C68 |
| C89 | whole: with the iterative Loop filter in uniform mode and the exact cosine. The edges of an old point after a level are the first halves of its edges before; the point and the sum of its neighbours follow a linear map with the factors 1 and `loopRate k`. Points inserted later are covered by starting at the level that inserts them |
| C90 | false: no filter touches `PointData`, so no output has any (`C90_point_data_refuted`). Holds: it has no influence on a run (`C90_not_read_partial`); the ids keep their meaning (C06), so the caller can carry it over |
| C91 | `Proofs/Tree.lean`: each way through the tree is a row with the invariant of C72; a call on one way changes times only to later ones than all there were (`Moved`), and `splice_inv`: a row that shares its first filters with it keeps the invariant. Up-to-date filters are skipped (`updateData_skip`). Partial: the filters of C72; refuted for a shared cell filter with a list (`Properties/TreeList.lean`) |
| C92 | `Proofs/Ternary.lean`: with the new points σ of the first level and τ of the second, the triangles of the second level are enumerated from the kinds of edges the first one makes (`dart_cases`): corner–middle, middle–middle, rim; `near` is the τ of the triangle made at the edge. Induction over pairs of levels |
| C93 | `Proofs/RoundedLength.lean`: as C75, with errors: a split edge has at least 49/50 of the maximum, one that is not at most 51/50; the new edges of an iteration are at most 9/10 of the longest (parallelogram law), unless they were short enough to stay. Count down to 0. The other side: an edge between neighbouring machine positions leaves one |
| C94 | `Proofs/RoundedArea.lean`: as C32, with errors: the area of a triangle changes by at most 3κR when its corners move by κ in a ball of radius R (`area_moved`, from the triangle inequality for the parallelogram spanned with a fixed vector); a piece has at most a quarter, or half, of the whole up to that. The other side: wherever the midpoints fall, one piece is the whole triangle (`whole_piece`) |
| C95 | `Proofs/Steady.lean`: the two meshes become one mesh with two positions per point; by C64 the run on the differences of the positions gives the differences of the outputs, and the sizes of the positions of one run are bounded as in C66 (`size_cell`, `size_levels`). That Butterfly reaches 3/2 is a computed example; that the conditional filters jump follows from C33 and C60 |
| C96 | `Proofs/TwoSteps.lean`: a triangle that the first run splits has no edge of the second list, and neither have its children, whose other edges have a new end (`children_two`); the labels of the two runs put together are those of the single run (`labelOf_both`, `lastLabel_both`), and a run depends on the cell data and triangles of its input only (`foldl_addOne_congr`). For Loop and Butterfly the runs on the shapes are compared. For SquareThree the triangles with data that a run makes are computed from the sides and centres (`sq3Ann`, `sq3Ann_two`). `Proofs/Parts.lean`, `Properties/Parts.lean`: several parts, by adding one part at a time to the single run (`InTurn`); the order by C27. `C96_triangle_between` shows that the condition cannot be dropped |
| C97 | `Proofs/Data.lean`: two runs on meshes that differ in their data only are followed in step (`Sim`); the states agree but for the data of the output, and these are related by any relation that `PassCellData` keeps (`passed_map`). The relation "what `g` makes of it" gives `C97_carried`, the relation that always holds gives `C97_no_influence`. `Model/TwoData.lean`, `Proofs/TwoData.lean`: filters with two types of cell data; `PassCellData` converts, which is the same as running on converted data |
| C98 | `Proofs/RoundedLoop.lean`: as C93, with the four points of the Loop scheme: a computed new point is near one of C75, and the bounds of C75 leave room for the errors when the rate is 19/20. `C98_floating` takes the error of the sum from the lemmas of C66. The other side: boundary edges, whose new points are midpoints, are cut into boundary edges (C18) |
| C99 | `Proofs/Links.lean`: the runs are determined by points, cells, edges and left faces up to what the rings enter: the sum over the ring of a point does not depend on where it starts or on its order (C45 with the identity), and where the boundary does not touch itself the ring laws determine `Onext` (`onext_forced`). Inductions over levels and rounds. For Linear and SquareThree the two programs are the same by definition. Three triangles sharing one point refute it for Butterfly |
| C106 | `Proofs/Family.lean`: the list of output triangles with their data is the list of input triangles with each replaced by its pieces (C103); places in such a list, and, for pieces of equal number, division with remainder |
| C105 | `Proofs/More.lean`: two runs side by side, level by level: the part that the smaller run refines next is in the mesh of the larger run (under other ids) and is refined next there too; from the second level on no triangle besides the selected ones is split into four (C76), so that the two runs cannot drift apart. Cells by counting directed edges that are split, edges by C17. SquareThree: every selected cell gives three recorded cells, hence a formula for the size. Edge filters (`Properties/MoreEdges.lean`): both runs compute the point of an edge in the same way, up to its direction |
| C104 | `Proofs/RimLength.lean`: an edge is the union of its halves, with C18 for the edges of the boundary (the edge filters of Linear and Loop put points of boundary edges in the middle); sums over round trips and C51 for the curve after L levels; Loop: each new edge is 3/8 of one old edge plus 1/8 of a neighbour. Induction over levels and steps of the conditional filter |
| C103 | `Proofs/Labels.lean`: the triangles of the output with their data are the children of the triangles of the input with the data of the parents, in order; then the proofs of C21 and C59 triangle by triangle, and counting children. Induction over levels |
| C102 | `Proofs/Exact.lean`: the stencils on pairs of a machine position and its exact value, with the set of positions on a refined grid and of bounded size (`Stable`, as for C66). The properties file shows that numbers with `p` binary digits are exact on such a grid |
| C101 | `Proofs/Bulge.lean`: with links that obey the ring laws all eight points of the stencil exist, also at the boundary; the weights are positive with sum 5/4 and negative with sum -1/4. On closed meshes the new point differs from the middle of its edge by four differences along edges with weight 1/16; edges shrink by 7/8 (C67) and the geometric series sums to 2. Inductions over levels and rounds |
| C100 | `Proofs/Undo.lean`: four children of a triangle begin with its three corners, so the list of triangles and with it the number of points can be read off; points that stay are the first of the output. For SquareThree every output triangle at an old point names the next old point round it. For Loop, the new neighbours of a point together with its new place solve for its old place, because the factor of the old place (`loopRate`, 5/8 less the weight of the neighbours) is never zero. Induction over levels |
| C48 | invariant of the time stamps: an output that would not be generated again is the one asked for |

### Other proof files
* `Sim`, `Alike`, `EdgeAlike`, `Affine`, `Rename`, `RenameRun`, `Compact`, `Gaps`, `Shape`: two runs side by side (C19, C25, C37, C38, C44, C45, C49).
* `Hoare`, `Failures`, `CursorLoop`, `NoData`: which failures and which data a run can end with, on arbitrary meshes (C35, C36, C46).
* `Relabel`: two labellings of the same edges (C27).
* `Hull`, `Affine`, `Geometry`: stencils over ordered fields and ℝ (C19, C20, C21, C32, C33).
* `Iterative`, `Criteria`, `Conditional`, `CondSafe`: the drivers (C22–C24, C26, C28–C34, C47).
* `Levels`: what each level keeps, all levels keep (C06, C14, C15, C17–C21 for the iterative filters, C51–C53).
* `CondInduct`: what each iteration of the conditional filter keeps, the whole run keeps (C19–C21, C52 for the conditional filter).
* `Pipeline`, `PipeRuns`, `UniformKept`, `Recorded`: the pipeline (C48); `Chain`, `ChainRuns`: filters in a row (C72); `Tree`: pipelines that branch (C91).

Properties that turn out false are kept in `properties.jsonl`; the manifest names the refutation and the `_partial` theorem.

## 5. Mutation testing
`seeded/LOG.jsonl` records edits of the model in a scratch copy. After an edit the copy is rebuilt; each proof that no longer
checks is replaced by `sorry` and the build goes on, and the entry lists the property theorems that depend on `sorryAx` in
the end. So `failed` includes theorems that fail only because a lemma they share with others does; what counts is that the
theorems about the broken claim are among them, and that those which survive do not speak of the edited code.
