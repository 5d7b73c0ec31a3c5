import Verif.Lemmas.Alloc
import Verif.Lemmas.ApproxHash
import Verif.Lemmas.BucketQueue
import Verif.Lemmas.Camera
import Verif.Lemmas.Center
import Verif.Lemmas.CloudMsg
import Verif.Lemmas.ColorMap
import Verif.Lemmas.ConfigPrint
import Verif.Lemmas.Cube
import Verif.Lemmas.Cylinder
import Verif.Lemmas.Dispatch
import Verif.Lemmas.DistanceError
import Verif.Lemmas.Esdf
import Verif.Lemmas.EsdfBatch
import Verif.Lemmas.EsdfCopy
import Verif.Lemmas.EsdfMeasure
import Verif.Lemmas.EsdfOcc
import Verif.Lemmas.EsdfOpen
import Verif.Lemmas.EsdfRaise
import Verif.Lemmas.EsdfRobot
import Verif.Lemmas.EsdfSame
import Verif.Lemmas.EsdfServer
import Verif.Lemmas.EsdfVisit
import Verif.Lemmas.EvalCloud
import Verif.Lemmas.EvalProgram
import Verif.Lemmas.Evaluation
import Verif.Lemmas.Export
import Verif.Lemmas.FastCalls
import Verif.Lemmas.FloatBits
import Verif.Lemmas.Grid
import Verif.Lemmas.GridWrite
import Verif.Lemmas.HeightColor
import Verif.Lemmas.Icp
import Verif.Lemmas.IcpMatch
import Verif.Lemmas.IcpRun
import Verif.Lemmas.Ieee
import Verif.Lemmas.Index
import Verif.Lemmas.IndexFloat
import Verif.Lemmas.Intensity
import Verif.Lemmas.IntensityServer
import Verif.Lemmas.IntensityVis
import Verif.Lemmas.Interp
import Verif.Lemmas.InterpAdaptive
import Verif.Lemmas.InterpCell
import Verif.Lemmas.InterpFloat
import Verif.Lemmas.InterpGrad
import Verif.Lemmas.InterpQuery
import Verif.Lemmas.InterpVoxel
import Verif.Lemmas.Layer
import Verif.Lemmas.LayerIO
import Verif.Lemmas.LayerMsg
import Verif.Lemmas.LayerUtils
import Verif.Lemmas.MapQuery
import Verif.Lemmas.MapServer
import Verif.Lemmas.MarchingCubes
import Verif.Lemmas.MarchingTables
import Verif.Lemmas.MarkerColor
import Verif.Lemmas.Merge
import Verif.Lemmas.MergeError
import Verif.Lemmas.MeshBlock
import Verif.Lemmas.MeshBlockMsg
import Verif.Lemmas.MeshColor
import Verif.Lemmas.MeshColorMsg
import Verif.Lemmas.MeshConnect
import Verif.Lemmas.MeshDisplay
import Verif.Lemmas.MeshGenerate
import Verif.Lemmas.MeshIntegrator
import Verif.Lemmas.MeshLayer
import Verif.Lemmas.MeshMarker
import Verif.Lemmas.MeshMsg
import Verif.Lemmas.MeshNormals
import Verif.Lemmas.MeshOps
import Verif.Lemmas.MeshSync
import Verif.Lemmas.Narrow
import Verif.Lemmas.NormalColor
import Verif.Lemmas.Objects
import Verif.Lemmas.ObjectsFloat
import Verif.Lemmas.ObjectsFloatCube
import Verif.Lemmas.Placement
import Verif.Lemmas.Ply
import Verif.Lemmas.PlyNumber
import Verif.Lemmas.PlyWriter
import Verif.Lemmas.Proto
import Verif.Lemmas.PtCloud
import Verif.Lemmas.RayCaster
import Verif.Lemmas.RayCover
import Verif.Lemmas.RayEnds
import Verif.Lemmas.RayFloat
import Verif.Lemmas.RayMeasured
import Verif.Lemmas.RayPlane
import Verif.Lemmas.RaySearch
import Verif.Lemmas.Rigid
import Verif.Lemmas.RoundError
import Verif.Lemmas.ScanFloat
import Verif.Lemmas.SdfCloud
import Verif.Lemmas.Serial
import Verif.Lemmas.ServerClouds
import Verif.Lemmas.ServerIO
import Verif.Lemmas.ServerMesh
import Verif.Lemmas.ServerScan
import Verif.Lemmas.ServerSend
import Verif.Lemmas.Setup
import Verif.Lemmas.SimCloud
import Verif.Lemmas.SimProgram
import Verif.Lemmas.SimSetup
import Verif.Lemmas.SimWorld
import Verif.Lemmas.Slice
import Verif.Lemmas.Sphere
import Verif.Lemmas.Timing
import Verif.Lemmas.TimingDouble
import Verif.Lemmas.TimingPrint
import Verif.Lemmas.Transform
import Verif.Lemmas.TransformTsdf
import Verif.Lemmas.Transformer
import Verif.Lemmas.Tsdf
import Verif.Lemmas.TsdfFast
import Verif.Lemmas.TsdfMerged
import Verif.Lemmas.TsdfPool
import Verif.Lemmas.TsdfRay
import Verif.Lemmas.TsdfScan
import Verif.Lemmas.TsdfVisits
import Verif.Lemmas.Visualizer
import Verif.Model.Alloc
import Verif.Model.ApproxHash
import Verif.Model.Arith
import Verif.Model.Basic
import Verif.Model.BucketQueue
import Verif.Model.Camera
import Verif.Model.CloudMsg
import Verif.Model.ColorMap
import Verif.Model.ConfigPrint
import Verif.Model.Dispatch
import Verif.Model.Esdf
import Verif.Model.EsdfOcc
import Verif.Model.EsdfServer
import Verif.Model.EvalCloud
import Verif.Model.EvalPoses
import Verif.Model.EvalProgram
import Verif.Model.Evaluation
import Verif.Model.Export
import Verif.Model.FastCalls
import Verif.Model.Float
import Verif.Model.FloatBits
import Verif.Model.Geometry
import Verif.Model.Grid
import Verif.Model.GridWrite
import Verif.Model.Icp
import Verif.Model.Ieee
import Verif.Model.Index
import Verif.Model.IndexFloat
import Verif.Model.Intensity
import Verif.Model.IntensityServer
import Verif.Model.IntensityVis
import Verif.Model.Interp
import Verif.Model.InterpAdaptive
import Verif.Model.InterpFloat
import Verif.Model.InterpGrad
import Verif.Model.InterpVoxel
import Verif.Model.Layer
import Verif.Model.LayerIO
import Verif.Model.LayerMsg
import Verif.Model.LayerUtils
import Verif.Model.MapQuery
import Verif.Model.MapServer
import Verif.Model.MarchingCubes
import Verif.Model.Merge
import Verif.Model.Mesh
import Verif.Model.MeshDisplay
import Verif.Model.MeshIntegrator
import Verif.Model.MeshLayer
import Verif.Model.MeshMarker
import Verif.Model.MeshMsg
import Verif.Model.Objects
import Verif.Model.ObjectsFloat
import Verif.Model.Occupancy
import Verif.Model.Placement
import Verif.Model.Ply
import Verif.Model.Proto
import Verif.Model.PtCloud
import Verif.Model.RayCaster
import Verif.Model.RayIndex
import Verif.Model.RaySearch
import Verif.Model.ServerClouds
import Verif.Model.ServerIO
import Verif.Model.ServerIcp
import Verif.Model.ServerMesh
import Verif.Model.Setup
import Verif.Model.SimCloud
import Verif.Model.SimProgram
import Verif.Model.SimServer
import Verif.Model.SimSetup
import Verif.Model.SimWorld
import Verif.Model.Slice
import Verif.Model.Slider
import Verif.Model.Sphere
import Verif.Model.Timing
import Verif.Model.TimingPrint
import Verif.Model.Transformer
import Verif.Model.Tsdf
import Verif.Model.TsdfScan
import Verif.Model.TsdfToEsdf
import Verif.Model.Visualizer
import Verif.Model.Voxel
import Verif.Props.Alloc
import Verif.Props.ApproxHash
import Verif.Props.BucketQueue
import Verif.Props.Camera
import Verif.Props.CloudMsg
import Verif.Props.ColorMap
import Verif.Props.ConfigPrint
import Verif.Props.Dispatch
import Verif.Props.Esdf
import Verif.Props.EsdfBatch
import Verif.Props.EsdfOcc
import Verif.Props.EsdfOps
import Verif.Props.EsdfParent
import Verif.Props.EsdfServer
import Verif.Props.EvalCloud
import Verif.Props.EvalPoses
import Verif.Props.EvalProgram
import Verif.Props.Evaluation
import Verif.Props.Export
import Verif.Props.FastCalls
import Verif.Props.Icp
import Verif.Props.IcpMatch
import Verif.Props.IcpRun
import Verif.Props.Index
import Verif.Props.IndexFloat
import Verif.Props.Intensity
import Verif.Props.IntensityServer
import Verif.Props.IntensityVis
import Verif.Props.Interp
import Verif.Props.InterpAdaptive
import Verif.Props.InterpFloat
import Verif.Props.InterpGrad
import Verif.Props.InterpVoxel
import Verif.Props.Layer
import Verif.Props.LayerIO
import Verif.Props.LayerMsg
import Verif.Props.LayerUtils
import Verif.Props.MapQuery
import Verif.Props.MapServer
import Verif.Props.MarchingCubes
import Verif.Props.Merge
import Verif.Props.MergeRounding
import Verif.Props.Mesh
import Verif.Props.MeshDisplay
import Verif.Props.MeshIntegrator
import Verif.Props.MeshLayer
import Verif.Props.MeshMarker
import Verif.Props.MeshMsg
import Verif.Props.Narrow
import Verif.Props.Objects
import Verif.Props.ObjectsFloat
import Verif.Props.Occupancy
import Verif.Props.Placement
import Verif.Props.Ply
import Verif.Props.PlyWriter
import Verif.Props.PtCloud
import Verif.Props.RayCaster
import Verif.Props.RayFloat
import Verif.Props.RayIndex
import Verif.Props.RayMeasured
import Verif.Props.RaySearch
import Verif.Props.SdfCloud
import Verif.Props.Serial
import Verif.Props.ServerClouds
import Verif.Props.ServerIO
import Verif.Props.ServerIcp
import Verif.Props.ServerMesh
import Verif.Props.ServerScan
import Verif.Props.ServerSend
import Verif.Props.Setup
import Verif.Props.SimCloud
import Verif.Props.SimProgram
import Verif.Props.SimServer
import Verif.Props.SimSetup
import Verif.Props.SimWorld
import Verif.Props.Slice
import Verif.Props.Slider
import Verif.Props.Sphere
import Verif.Props.Timing
import Verif.Props.TimingDouble
import Verif.Props.TimingPrint
import Verif.Props.Transformer
import Verif.Props.Tsdf
import Verif.Props.TsdfFast
import Verif.Props.TsdfMerged
import Verif.Props.TsdfRounding
import Verif.Props.TsdfScan
import Verif.Props.TsdfToEsdf
import Verif.Props.TsdfVisits
import Verif.Props.Visualizer
import Verif.Spec.Camera
import Verif.Spec.CloudMsg
import Verif.Spec.ColorMap
import Verif.Spec.ConfigPrint
import Verif.Spec.Dispatch
import Verif.Spec.EsdfOcc
import Verif.Spec.EsdfServer
import Verif.Spec.EsdfTsdf
import Verif.Spec.EvalCloud
import Verif.Spec.EvalProgram
import Verif.Spec.Evaluation
import Verif.Spec.Export
import Verif.Spec.FastCalls
import Verif.Spec.Grid
import Verif.Spec.Icp
import Verif.Spec.Index
import Verif.Spec.Intensity
import Verif.Spec.IntensityServer
import Verif.Spec.IntensityVis
import Verif.Spec.Interp
import Verif.Spec.InterpFloat
import Verif.Spec.InterpGrad
import Verif.Spec.InterpVoxel
import Verif.Spec.Layer
import Verif.Spec.LayerMsg
import Verif.Spec.LayerUtils
import Verif.Spec.MapServer
import Verif.Spec.Merge
import Verif.Spec.MergeRounding
import Verif.Spec.Mesh
import Verif.Spec.MeshDisplay
import Verif.Spec.MeshLayer
import Verif.Spec.MeshMarker
import Verif.Spec.MeshMsg
import Verif.Spec.MeshOps
import Verif.Spec.Narrow
import Verif.Spec.Objects
import Verif.Spec.ObjectsFloat
import Verif.Spec.Placement
import Verif.Spec.Ply
import Verif.Spec.PriorityQueue
import Verif.Spec.PtCloud
import Verif.Spec.Ray
import Verif.Spec.RayFloat
import Verif.Spec.RayIndex
import Verif.Spec.RaySearch
import Verif.Spec.Rigid
import Verif.Spec.Serial
import Verif.Spec.ServerClouds
import Verif.Spec.ServerIO
import Verif.Spec.ServerMesh
import Verif.Spec.ServerSend
import Verif.Spec.Setup
import Verif.Spec.SimCloud
import Verif.Spec.SimProgram
import Verif.Spec.SimServer
import Verif.Spec.SimSetup
import Verif.Spec.SimWorld
import Verif.Spec.Slice
import Verif.Spec.Slider
import Verif.Spec.Sphere
import Verif.Spec.Surface
import Verif.Spec.Timing
import Verif.Spec.TimingPrint
import Verif.Spec.Transformer
import Verif.Spec.Tsdf
import Verif.Spec.TsdfRounding
import Verif.Spec.TsdfScan
import Verif.Spec.TsdfVisits
import Verif.Spec.Visualizer
