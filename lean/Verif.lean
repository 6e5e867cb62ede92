import Verif.Model.Backends
import Verif.Model.Cells
import Verif.Model.ComponentState
import Verif.Model.Components
import Verif.Model.Convert
import Verif.Model.CpuApi
import Verif.Model.DeviceFast
import Verif.Model.DeviceIndex
import Verif.Model.DeviceVoxelize
import Verif.Model.EDT
import Verif.Model.EDT3
import Verif.Model.Export
import Verif.Model.Filter
import Verif.Model.Fl
import Verif.Model.Fused
import Verif.Model.FusedGradient
import Verif.Model.FusedLocation
import Verif.Model.FusedQuery
import Verif.Model.IEEE
import Verif.Model.MapSDF
import Verif.Model.Par
import Verif.Model.PointCloud2
import Verif.Model.PoseFloat
import Verif.Model.PoseProduct
import Verif.Model.Rasterize
import Verif.Model.RasterizeFloat
import Verif.Model.Raycast
import Verif.Model.RaycastFloat
import Verif.Model.Rl
import Verif.Model.SDFGen
import Verif.Model.SDFQuery
import Verif.Model.SDFQueryFloat
import Verif.Model.Serial
import Verif.Model.StaticSurface
import Verif.Model.Surface
import Verif.Model.Topology
import Verif.Model.Voxelize
import Verif.Model.VoxelizeFloat
import Verif.Spec.Accurate
import Verif.Spec.Backends
import Verif.Spec.Camera
import Verif.Spec.CameraDevice
import Verif.Spec.Clearance
import Verif.Spec.Components
import Verif.Spec.Distance
import Verif.Spec.Export
import Verif.Spec.Extrema
import Verif.Spec.FairContinuous
import Verif.Spec.FairFar
import Verif.Spec.FairFine
import Verif.Spec.FairGradient
import Verif.Spec.FairIndex
import Verif.Spec.FairQuery
import Verif.Spec.FairWalk
import Verif.Spec.FairWorld
import Verif.Spec.Filled
import Verif.Spec.Filter
import Verif.Spec.FineMesh
import Verif.Spec.Interp
import Verif.Spec.Pipeline
import Verif.Spec.PointCloud2
import Verif.Spec.Rasterize
import Verif.Spec.Ray
import Verif.Spec.RayPath
import Verif.Spec.RayRound
import Verif.Spec.Reaches
import Verif.Spec.SDF
import Verif.Spec.SDFGenHyp
import Verif.Spec.Serial
import Verif.Spec.StaticSurface
import Verif.Spec.Surface
import Verif.Spec.Topology
import Verif.Spec.Voxelize
import Verif.Spec.World
import Verif.Lemmas.Accurate
import Verif.Lemmas.CameraDevice
import Verif.Lemmas.CameraRound
import Verif.Lemmas.Clearance
import Verif.Lemmas.Components
import Verif.Lemmas.CpuApi
import Verif.Lemmas.DeviceVoxelize
import Verif.Lemmas.EDT1
import Verif.Lemmas.EDT3
import Verif.Lemmas.FairEstimate
import Verif.Lemmas.FairFar
import Verif.Lemmas.FairGradient
import Verif.Lemmas.FairInterp
import Verif.Lemmas.FairQuery
import Verif.Lemmas.FairWalk
import Verif.Lemmas.FairWorld
import Verif.Lemmas.Filter
import Verif.Lemmas.FineMesh
import Verif.Lemmas.Fused
import Verif.Lemmas.Generated
import Verif.Lemmas.GradientRound
import Verif.Lemmas.IEEE
import Verif.Lemmas.Interp
import Verif.Lemmas.Lipschitz
import Verif.Lemmas.MapSDF
import Verif.Lemmas.Par
import Verif.Lemmas.QueryRound
import Verif.Lemmas.QueryRoundAll
import Verif.Lemmas.QueryRoundBilinear
import Verif.Lemmas.RasterRound
import Verif.Lemmas.RasterRuns
import Verif.Lemmas.Rasterize
import Verif.Lemmas.RayPath
import Verif.Lemmas.RayRound
import Verif.Lemmas.RayRoundCast
import Verif.Lemmas.RayRoundWalk
import Verif.Lemmas.Raycast
import Verif.Lemmas.RaycastExact
import Verif.Lemmas.SDFGen
import Verif.Lemmas.SDFGen2
import Verif.Lemmas.Serial
import Verif.Lemmas.Surface
import Verif.Lemmas.Topology
import Verif.Lemmas.TopologyBound
import Verif.Lemmas.TopologyBox
import Verif.Lemmas.TopologyCount
import Verif.Lemmas.TopologyEuler
import Verif.Lemmas.TopologyGeom
import Verif.Lemmas.TopologyRank
import Verif.Lemmas.Voxelize
import Verif.Lemmas.Voxelize2
import Verif.Lemmas.VoxelizeFloat
import Verif.Lemmas.World
import Verif.Props.Accurate
import Verif.Props.AccurateAll
import Verif.Props.AccurateEx
import Verif.Props.Anywhere
import Verif.Props.AnywhereWorld
import Verif.Props.Backends
import Verif.Props.CameraDevice
import Verif.Props.CameraDouble
import Verif.Props.CameraFloat
import Verif.Props.CameraRay
import Verif.Props.CameraReach
import Verif.Props.CameraRound
import Verif.Props.CameraSeen
import Verif.Props.CameraSeenEx
import Verif.Props.CameraWide
import Verif.Props.Clearance
import Verif.Props.CoarseBounds
import Verif.Props.Components
import Verif.Props.Convert
import Verif.Props.CpuApi
import Verif.Props.DeviceFast
import Verif.Props.DeviceIndex
import Verif.Props.DeviceVoxelize
import Verif.Props.Export
import Verif.Props.Extrema
import Verif.Props.FairContinuous
import Verif.Props.FairDefined
import Verif.Props.FairDefinedWorld
import Verif.Props.FairFine
import Verif.Props.FairFineEx
import Verif.Props.FairFineNear
import Verif.Props.FairFineWorld
import Verif.Props.FairFree
import Verif.Props.FairFreeAll
import Verif.Props.FairFreeEx
import Verif.Props.FairFreeFar
import Verif.Props.FairFreeFarAll
import Verif.Props.FairFreeWorld
import Verif.Props.FairGradient
import Verif.Props.FairGradientEx
import Verif.Props.FairPipeline
import Verif.Props.FairProject
import Verif.Props.FairQuery
import Verif.Props.FairWorld
import Verif.Props.FairWorldEx
import Verif.Props.FarEx
import Verif.Props.FarSensor
import Verif.Props.FarWorld
import Verif.Props.Filter
import Verif.Props.FineMesh
import Verif.Props.Gradient
import Verif.Props.GradientFloat
import Verif.Props.GradientRound
import Verif.Props.IEEE
import Verif.Props.Interp
import Verif.Props.Lipschitz
import Verif.Props.Machine
import Verif.Props.MapSDF
import Verif.Props.MeshField
import Verif.Props.NamedField
import Verif.Props.ObjectField
import Verif.Props.Pipeline
import Verif.Props.PipelineAll
import Verif.Props.PipelineEx
import Verif.Props.PointCloud2
import Verif.Props.PointKept
import Verif.Props.PoseRound
import Verif.Props.Project
import Verif.Props.QueryFloat
import Verif.Props.QueryOutcome
import Verif.Props.QueryRound
import Verif.Props.RasterSymmetry
import Verif.Props.Rasterize
import Verif.Props.RasterizeFloat
import Verif.Props.RayCut
import Verif.Props.RayDefined
import Verif.Props.RayEntry
import Verif.Props.RayReaches
import Verif.Props.RayRound
import Verif.Props.Raycast
import Verif.Props.RaycastFloat
import Verif.Props.RetrieveTracking
import Verif.Props.SDFGen
import Verif.Props.Serial
import Verif.Props.StaticSurface
import Verif.Props.Surface
import Verif.Props.Topology
import Verif.Props.Units
import Verif.Props.Voxelize
import Verif.Props.VoxelizeFloat
import Verif.Props.WallDistance
import Verif.Props.WallEdge
import Verif.Props.WallNormal
import Verif.Props.WallProject
import Verif.Props.World
import Verif.Props.WorldEx
import Verif.Props.WorldPose
import Verif.Audit
