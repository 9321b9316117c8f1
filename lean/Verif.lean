import Verif.Model.Drivers
import Verif.Spec.Surface
import Verif.Proofs.Build
import Verif.Proofs.Children
import Verif.Proofs.Emit
import Verif.Proofs.FaceSplit
import Verif.Proofs.Points
import Verif.Proofs.Rings
import Verif.Proofs.Schemes
import Verif.Proofs.EdgeFilters
import Verif.Proofs.Check
import Verif.Proofs.Lawful
import Verif.Proofs.Result
import Verif.Properties.FaceSplit
import Verif.Proofs.Keep
import Verif.Proofs.Coords
import Verif.Properties.Points
import Verif.Properties.Edge
import Verif.Properties.Topology
import Verif.Spec.Sqrt3
import Verif.Proofs.Sqrt3
import Verif.Proofs.Sqrt3Items
import Verif.Proofs.Sqrt3Run
import Verif.Proofs.Sqrt3Result
import Verif.Properties.Sqrt3
import Verif.Proofs.CursorLoop
import Verif.Spec.Affine
import Verif.Proofs.Sim
import Verif.Proofs.Alike
import Verif.Spec.History
import Verif.Properties.History
import Verif.Proofs.Affine
import Verif.Properties.Affine
import Verif.Spec.Hull
import Verif.Proofs.Hull
import Verif.Properties.Hull
import Verif.Spec.Iterative
import Verif.Proofs.Iterative
import Verif.Properties.Iterative
import Verif.Spec.Coords
import Verif.Spec.Gaps
import Verif.Spec.Mixed
import Verif.Proofs.Relabel
import Verif.Proofs.Hoare
import Verif.Proofs.Failures
import Verif.Properties.Order
import Verif.Properties.Rejected
import Verif.Proofs.EdgeAlike
import Verif.Properties.EdgeRuns
import Verif.Properties.LoopSelective
import Verif.Spec.Criteria
import Verif.Proofs.Criteria
import Verif.Proofs.Conditional
import Verif.Properties.Conditional
import Verif.Spec.Geometry
import Verif.Proofs.Geometry
import Verif.Properties.Geometry
import Verif.Proofs.Rename
import Verif.Proofs.RenameRun
import Verif.Proofs.Compact
import Verif.Proofs.Gaps
import Verif.Properties.Numbering
import Verif.Properties.Isolated
import Verif.Properties.Gaps
import Verif.Proofs.NoData
import Verif.Properties.CondData
import Verif.Proofs.CondSafe
import Verif.Properties.CondSafe
import Verif.Model.Pipeline
import Verif.Spec.Pipeline
import Verif.Proofs.Pipeline
import Verif.Proofs.PipeRuns
import Verif.Proofs.UniformKept
import Verif.Proofs.Recorded
import Verif.Properties.Pipeline
import Verif.Spec.Shape
import Verif.Proofs.Shape
import Verif.Properties.Shape
import Verif.Spec.Similar
import Verif.Proofs.Similar
import Verif.Properties.Similar
import Verif.Spec.Rim
import Verif.Proofs.Rim
import Verif.Properties.Rim
import Verif.Proofs.Levels
import Verif.Properties.Levels
import Verif.Spec.Linked
import Verif.Proofs.Linked
import Verif.Properties.Linked
import Verif.Spec.Valence
import Verif.Proofs.Valence
import Verif.Properties.Valence
import Verif.Proofs.Whole
import Verif.Properties.Whole
import Verif.Proofs.CondInduct
import Verif.Properties.LevelsGeo
import Verif.Properties.CondKeeps
import Verif.Spec.Errors
import Verif.Proofs.Errors
import Verif.Properties.Errors
import Verif.Spec.Local
import Verif.Proofs.Local
import Verif.Properties.Local
import Verif.Spec.Listing
import Verif.Proofs.Listing
import Verif.Proofs.ListingRun
import Verif.Proofs.ListingSqrt3
import Verif.Properties.Listing
import Verif.Spec.Volume
import Verif.Spec.BigTri
import Verif.Proofs.Volume
import Verif.Proofs.CondExact
import Verif.Properties.Volume
import Verif.Properties.CondExact
import Verif.Spec.Normals
import Verif.Proofs.Normals
import Verif.Properties.Normals
import Verif.Spec.Regular
import Verif.Proofs.Regular
import Verif.Properties.Regular
import Verif.Spec.Mirror
import Verif.Proofs.Mirror
import Verif.Proofs.MirrorRun
import Verif.Proofs.MirrorSqrt3
import Verif.Properties.Mirror
import Verif.Proofs.CondMirror
import Verif.Properties.MirrorCond
import Verif.Spec.Superpose
import Verif.Proofs.Superpose
import Verif.Properties.Superpose
import Verif.Spec.Support
import Verif.Proofs.Support
import Verif.Properties.Support
import Verif.Spec.Rounding
import Verif.Proofs.Stable
import Verif.Proofs.Rounding
import Verif.Proofs.RoundingLevels
import Verif.Properties.Rounding
import Verif.Spec.Converge
import Verif.Proofs.Shrink
import Verif.Proofs.ShrinkLevels
import Verif.Properties.Converge
import Verif.Spec.Fans
import Verif.Proofs.Fans
import Verif.Properties.Fans
import Verif.Model.TwoTypes
import Verif.Spec.TwoTypes
import Verif.Proofs.TwoTypes
import Verif.Properties.TwoTypes
import Verif.Proofs.Sqrt3Area
import Verif.Properties.CondSqrt3
import Verif.Proofs.Sqrt3Normals
import Verif.Properties.Sqrt3Normals
import Verif.Model.Chain
import Verif.Spec.Chain
import Verif.Proofs.Chain
import Verif.Proofs.ChainRuns
import Verif.Properties.Chain
import Verif.Properties.ChainOnce
import Verif.Properties.ChainFirst
import Verif.Properties.ChainLists
import Verif.Properties.PipelineSqrt3
import Verif.Properties.ChainSqrt3
import Verif.Spec.Sliver
import Verif.Proofs.Sliver
import Verif.Properties.Sliver
import Verif.Proofs.Settled
import Verif.Properties.Settled
import Verif.Proofs.LoopLength
import Verif.Properties.LoopLength
import Verif.Spec.Cost
import Verif.Proofs.Cost
import Verif.Proofs.CostArea
import Verif.Properties.Cost
import Verif.Proofs.Pieces
import Verif.Proofs.PiecesLeft
import Verif.Properties.Pieces
import Verif.Proofs.CondPieces
import Verif.Proofs.CondPiecesEdge
import Verif.Properties.CondPieces
import Verif.Spec.Trap
import Verif.Proofs.Trap
import Verif.Properties.Trap
import Verif.Properties.LoopWeight
import Verif.Spec.RimIn
import Verif.Proofs.RimIn
import Verif.Properties.RimIn
import Verif.Spec.Flat
import Verif.Properties.Flat
import Verif.Spec.Embedded
import Verif.Proofs.SixShares
import Verif.Proofs.Embedded
import Verif.Properties.Embedded
import Verif.Proofs.ButterflyLength
import Verif.Properties.ButterflyLength
import Verif.Model.Criterion
import Verif.Spec.OwnCriterion
import Verif.Proofs.OwnCriterion
import Verif.Properties.OwnCriterion
import Verif.Spec.Size
import Verif.Proofs.Size
import Verif.Proofs.SizeArea
import Verif.Properties.Size
import Verif.Model.Print
import Verif.Spec.Print
import Verif.Properties.Print
import Verif.Spec.Fat
import Verif.Proofs.Fat
import Verif.Properties.Fat
import Verif.Proofs.FatFans
import Verif.Properties.FatFans
import Verif.Proofs.FatLength
import Verif.Properties.FatLength
import Verif.Spec.Limit
import Verif.Proofs.Limit
import Verif.Properties.Limit
import Verif.Spec.PointData
import Verif.Proofs.NoPointData
import Verif.Properties.PointData
import Verif.Model.Tree
import Verif.Spec.Tree
import Verif.Proofs.Tree
import Verif.Properties.Tree
import Verif.Properties.TreeList
import Verif.Spec.Ternary
import Verif.Proofs.Ternary
import Verif.Properties.Ternary
import Verif.Spec.Grid
import Verif.Proofs.Grid
import Verif.Spec.Measured
import Verif.Proofs.RoundedLength
import Verif.Properties.RoundedLength
import Verif.Proofs.RoundedArea
import Verif.Properties.RoundedArea
import Verif.Proofs.Steady
import Verif.Properties.Steady
import Verif.Proofs.TwoSteps
import Verif.Properties.TwoSteps
import Verif.Proofs.Parts
import Verif.Properties.Parts
import Verif.Proofs.Data
import Verif.Properties.Data
import Verif.Proofs.CheckedLib
import Verif.Properties.CondLoopListing
import Verif.Properties.CondLoopMirror
import Verif.Proofs.RoundedLoop
import Verif.Properties.RoundedLoop
import Verif.Spec.Links
import Verif.Proofs.Links
import Verif.Properties.Links
import Verif.Proofs.NumberingRuns
import Verif.Properties.NumberingRuns
import Verif.Spec.Undo
import Verif.Proofs.Undo
import Verif.Properties.Undo
import Verif.Spec.Bulge
import Verif.Proofs.Bulge
import Verif.Properties.Bulge
import Verif.Spec.Exact
import Verif.Proofs.Exact
import Verif.Properties.Exact
import Verif.Spec.Labels
import Verif.Proofs.Labels
import Verif.Properties.Labels
import Verif.Spec.RimLength
import Verif.Proofs.RimLength
import Verif.Properties.RimLength
import Verif.Spec.More
import Verif.Proofs.More
import Verif.Properties.More
import Verif.Properties.MoreEdges
import Verif.Model.TwoData
import Verif.Proofs.TwoData
import Verif.Properties.TwoData
import Verif.Spec.Family
import Verif.Proofs.Family
import Verif.Properties.Family
import Verif.Properties.FamilyCond
import Verif.Model.PipelineEdge
import Verif.Properties.PipelineEdge
