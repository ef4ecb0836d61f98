import Verif.Props.GeometryQuery
import Verif.Props.AABB
import Verif.Props.AABBTree
import Verif.Props.BRep
import Verif.Props.BackgroundGrid
import Verif.Props.Clipper
import Verif.Props.FloodFill
import Verif.Props.GGQ
import Verif.Props.Grid
import Verif.Props.IO
import Verif.Props.Settings
import Verif.Props.MomentFitting
import Verif.Props.Polynomial
import Verif.Props.Octree
import Verif.Props.Mapping
import Verif.Props.MeshUtilities
import Verif.Props.Rules
import Verif.Props.EmbeddedModel
import Verif.Props.EmbeddedVolume
import Verif.Props.PlaneContour
import Verif.Props.PlaneSection
import Verif.Props.PlaneDomain
import Verif.Props.SurfaceIntegration
import Verif.Props.TrimmedDomain
import Verif.Props.ClipBoundary
import Verif.Props.ClipPartition
import Verif.Props.SolidVolume
import Verif.Props.SolidDomain
import Verif.Props.TrimmedSection
import Verif.Props.TrimmedRule
import Verif.Props.NNLS
import Verif.Props.SolverRule
import Verif.Props.Json
import Verif.Props.SettingsFile
import Verif.Props.Vtk
import Verif.Props.BSplineVolume
import Verif.Props.Kratos
import Verif.Props.MeshView
import Verif.Props.PyQuESo
import Verif.Props.DictionaryList
import Verif.Props.ModelInfo
import Verif.Props.TrimmedClosed
import Verif.Props.Lifetime
import Verif.Props.Parallel
import Verif.Props.Exceptions
import Verif.Props.Rounding
import Verif.Props.RoundingRule
import Verif.Props.RoundingMap
import Verif.Props.RoundingOctree
import Verif.Props.RoundingOctreeError
import Verif.Props.RoundingClipper
import Verif.Props.RoundingCapacity
import Verif.Props.RoundingRow
import Verif.Props.RoundingSAT
