import Verif.Model.Information
import Verif.Spec.Information
import Verif.Proofs.Information
import Verif.Props.Information
import Verif.Model.Results
import Verif.Spec.Results
import Verif.Proofs.Results
import Verif.Proofs.Sums
import Verif.Props.Results
import Verif.Model.Validity
import Verif.Spec.Validity
import Verif.Proofs.Validity
import Verif.Props.Validity
import Verif.Proofs.Maps
import Verif.Model.Colocation
import Verif.Spec.Colocation
import Verif.Proofs.Colocation
import Verif.Props.Colocation
import Verif.Spec.Common
import Verif.Proofs.Common
import Verif.Model.Mesh
import Verif.Model.Adjacency
import Verif.Spec.Adjacency
import Verif.Proofs.Adjacency
import Verif.Props.Adjacency
import Verif.Model.Degeneration
import Verif.Spec.Degeneration
import Verif.Proofs.Degeneration
import Verif.Props.Degeneration
import Verif.Model.Negative
import Verif.Spec.Negative
import Verif.Props.Negative
import Verif.Model.HashMap
import Verif.Proofs.HashMap
import Verif.Model.Manifold
import Verif.Spec.Manifold
import Verif.Proofs.Manifold
import Verif.Props.Manifold
import Verif.Model.Intersections
import Verif.Spec.Intersections
import Verif.Proofs.Intersections
import Verif.Props.Intersections
import Verif.Model.Topology
import Verif.Model.TopologyLines
import Verif.Spec.Topology
import Verif.Proofs.Topology
import Verif.Proofs.TopologyCorners
import Verif.Proofs.TopologyLines
import Verif.Proofs.TopologyBRepLines
import Verif.Proofs.TopologyLinesInspect
import Verif.Proofs.TopologyIf
import Verif.Proofs.TopologyUnreadable
import Verif.Proofs.TopologyData
import Verif.Props.TopologyCorners
import Verif.Props.TopologyLines
import Verif.Model.TopologySurfaces
import Verif.Spec.TopologySurfaces
import Verif.Proofs.TopologySurfaces
import Verif.Proofs.TopologySurfacesInspect
import Verif.Props.TopologySurfaces
import Verif.Model.ExpectedCmvs
import Verif.Spec.ExpectedCmvs
import Verif.Proofs.ExpectedCmvs
import Verif.Model.LinkedSurfaces
import Verif.Spec.LinkedSurfaces
import Verif.Proofs.LinkedSurfaces
import Verif.Proofs.FusedSurface
import Verif.Props.LinkedSurfaces
import Verif.Model.NotBoundarySurfaces
import Verif.Spec.NotBoundarySurfaces
import Verif.Proofs.NotBoundarySurfaces
import Verif.Model.TopologyBlocks
import Verif.Spec.TopologyBlocks
import Verif.Proofs.TopologyBlocks
import Verif.Proofs.TopologyBlocksInspect
import Verif.Props.TopologyBlocks
import Verif.Model.Concurrency
import Verif.Model.Inspectors
import Verif.Proofs.Concurrency
import Verif.Props.Concurrency
import Verif.Model.TopologyInspector
import Verif.Spec.TopologyInspector
import Verif.Proofs.TopologyInspector
import Verif.Props.TopologyInspector
import Verif.Proofs.Active
import Verif.Props.Active
import Verif.Model.Whole
import Verif.Spec.Whole
import Verif.Proofs.Whole
import Verif.Props.Whole
import Verif.Model.WholeModel
import Verif.Spec.WholeModel
import Verif.Proofs.WholeModel
import Verif.Proofs.WholeModelVerdict
import Verif.Props.WholeModel
import Verif.Spec.Triangles
import Verif.Proofs.Triangles
import Verif.Props.Triangles
import Verif.Model.Tools
import Verif.Spec.Tools
import Verif.Proofs.Tools
import Verif.Props.Tools
import Verif.Spec.TopologyMessages
import Verif.Proofs.TopologyMessages
import Verif.Proofs.TopologyMessagesBRep
import Verif.Proofs.TopologyMessagesBlocks
import Verif.Proofs.TopologyMessagesDesignate
import Verif.Props.TopologyMessages
import Verif.Spec.MeshMessages
import Verif.Proofs.MeshMessages
import Verif.Props.MeshMessages
import Verif.Proofs.MeshMessagesModel
import Verif.Props.MeshMessagesModel
import Verif.Spec.Identify
import Verif.Proofs.Identify
import Verif.Props.Identify
import Verif.Spec.Plain
import Verif.Proofs.Plain
import Verif.Props.Plain
import Verif.Spec.SameLists
import Verif.Proofs.SameLists
import Verif.Props.SameLists
import Verif.Spec.Closed
import Verif.Proofs.Closed
import Verif.Props.Closed
import Verif.Spec.Stored
import Verif.Proofs.Stored
import Verif.Props.Stored
import Verif.Spec.TrianglesMeet
import Verif.Proofs.TrianglesMeet
import Verif.Props.TrianglesMeet
import Verif.Model.Lifetimes
import Verif.Proofs.Lifetimes
import Verif.Props.Lifetimes
import Verif.Model.Python
import Verif.Spec.Python
import Verif.Proofs.Python
import Verif.Props.Python
import Verif.Model.PythonObjects
import Verif.Spec.PythonObjects
import Verif.Proofs.PythonObjects
import Verif.Props.PythonObjects
import Verif.Spec.Renumber
import Verif.Proofs.Renumber
import Verif.Props.Renumber
import Verif.Props.RayFailure
import Verif.Props.Raises
import Verif.Proofs.Raises
import Verif.Spec.Plane
import Verif.Proofs.Plane
import Verif.Proofs.PlaneTriangles
import Verif.Props.PlaneTriangles
import Verif.Spec.Space
import Verif.Proofs.Space
import Verif.Proofs.SpaceTriangles
import Verif.Props.SpaceTriangles
import Verif.Spec.Crossing
import Verif.Proofs.Crossing
import Verif.Props.Crossing
import Verif.Spec.Overlap
import Verif.Proofs.Overlap
import Verif.Props.Overlap
import Verif.Spec.OrientedManifold
import Verif.Proofs.OrientedManifold
import Verif.Proofs.OrientedCheck
import Verif.Props.OrientedManifold
import Verif.Spec.SamePlace
import Verif.Proofs.SamePlace
import Verif.Props.SamePlace
import Verif.Spec.NoOverlap
import Verif.Proofs.NoOverlap
import Verif.Props.NoOverlap
import Verif.Props.EdgesUsed
import Verif.Spec.Numbers
import Verif.Proofs.Numbers
import Verif.Props.Numbers
import Verif.Spec.Alone
import Verif.Proofs.Alone
import Verif.Props.Alone
import Verif.Spec.Inactive
import Verif.Proofs.Inactive
import Verif.Props.Inactive
import Verif.Spec.Watertight
import Verif.Proofs.Watertight
import Verif.Proofs.Skin
import Verif.Props.Watertight
import Verif.Spec.Moved
import Verif.Proofs.Moved
import Verif.Props.Moved
import Verif.Spec.Parts
import Verif.Proofs.Parts
import Verif.Props.PartsData
import Verif.Props.Parts
import Verif.Spec.Rounds
import Verif.Proofs.Rounds
import Verif.Props.Rounds
import Verif.Proofs.PartsBRep
import Verif.Props.PartsBRep
import Verif.Spec.Ids
import Verif.Proofs.Ids
import Verif.Proofs.IdsOk
import Verif.Props.Ids
import Verif.Spec.Vertices
import Verif.Proofs.Vertices
import Verif.Props.Vertices
import Verif.Spec.LineEdges
import Verif.Proofs.LineEdges
import Verif.Props.LineEdges
import Verif.Spec.Polygons
import Verif.Proofs.Polygons
import Verif.Props.Polygons
import Verif.Props.PolygonsFalse
import Verif.Props.Outside
import Verif.Props.LineEnds
import Verif.Props.LinesOnSurfaces
import Verif.Props.BlocksOnSurfaces
import Verif.Props.PolygonsMeet
import Verif.Props.LinesTwice
import Verif.Props.Corners
import Verif.Props.SurfacesMeet
import Verif.Props.BlocksMeet
import Verif.Props.CutAlongLines
import Verif.Props.Meshed
import Verif.Props.CornersOnLines
import Verif.Props.LinesInside
import Verif.Props.InternalCorners
import Verif.Props.BlocksCut
import Verif.Props.Borders
import Verif.Props.Separated
import Verif.Props.BothSides
