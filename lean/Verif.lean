import Verif.Model.Py
import Verif.Model.Assoc
import Verif.Lemmas.Dict
import Verif.Spec.Assoc
import Verif.Lemmas.AssocSpec
import Verif.Lemmas.Assoc
import Verif.Lemmas.AssocProps
import Verif.Props.Assoc
import Verif.Model.Ap
import Verif.Spec.Ap
import Verif.Lemmas.Ap
import Verif.Lemmas.ApOrder
import Verif.Props.Ap
import Verif.Model.Scores
import Verif.Lemmas.Scores
import Verif.Props.Scores
import Verif.Model.Vec
import Verif.Model.Geometry
import Verif.Spec.Geometry
import Verif.Lemmas.Geometry
import Verif.Props.Geometry
import Verif.Model.Box
import Verif.Spec.Box
import Verif.Lemmas.Box
import Verif.Props.Box
import Verif.Model.BBox
import Verif.Props.BBox
import Verif.Model.Rotation
import Verif.Lemmas.Rotation
import Verif.Props.Rotation
import Verif.Model.Symmetry
import Verif.Spec.Symmetry
import Verif.Props.Symmetry
import Verif.Model.PoseError
import Verif.Spec.RotationError
import Verif.Lemmas.RotationError
import Verif.Props.RotationError
import Verif.Lemmas.Pairs
import Verif.Lemmas.PoseError
import Verif.Props.PoseError
import Verif.Model.Perceptual
import Verif.Lemmas.Perceptual
import Verif.Props.Perceptual
import Verif.Model.Points
import Verif.Spec.Points
import Verif.Lemmas.Points
import Verif.Props.Points
import Verif.Model.Voxel
import Verif.Spec.Voxel
import Verif.Lemmas.Voxel
import Verif.Props.Voxel
import Verif.Model.Mesh
import Verif.Spec.Mesh
import Verif.Lemmas.Mesh
import Verif.Props.Mesh
import Verif.Model.Float
import Verif.Model.InverseDepth
import Verif.Lemmas.InverseDepth
import Verif.Props.InverseDepth
import Verif.Model.Category
import Verif.Spec.Category
import Verif.Lemmas.Category
import Verif.Props.Category
import Verif.Model.CubeMap
import Verif.Spec.CubeMap
import Verif.Lemmas.CubeMap
import Verif.Props.CubeMap
import Verif.Model.PointCloud
import Verif.Spec.PointCloud
import Verif.Lemmas.PointCloud
import Verif.Props.PointCloud
import Verif.Model.RangeImage
import Verif.Spec.RangeImage
import Verif.Lemmas.RangeImage
import Verif.Props.RangeImage
import Verif.Model.Sample
import Verif.Spec.Sample
import Verif.Lemmas.Sample
import Verif.Props.Sample
import Verif.Model.Xml
import Verif.Spec.Xml
import Verif.Lemmas.Xml
import Verif.Props.Xml
import Verif.Model.Scene
import Verif.Spec.Scene
import Verif.Lemmas.Scene
import Verif.Props.Scene
import Verif.Model.Glb
import Verif.Spec.Glb
import Verif.Lemmas.Glb
import Verif.Props.Glb
import Verif.Model.Gltf
import Verif.Spec.Gltf
import Verif.Lemmas.Gltf
import Verif.Lemmas.GltfRange
import Verif.Lemmas.GltfUpdate
import Verif.Props.Gltf
import Verif.Model.GlbSave
import Verif.Spec.GlbSave
import Verif.Props.GlbSave
import Verif.Model.Tiff
import Verif.Spec.Tiff
import Verif.Lemmas.Tiff
import Verif.Props.Tiff
import Verif.Model.Downloader
import Verif.Spec.Downloader
import Verif.Lemmas.Downloader
import Verif.Props.Downloader
import Verif.Model.DownloaderGlob
import Verif.Props.DownloaderGlob
import Verif.Model.Ply
import Verif.Spec.Ply
import Verif.Lemmas.Ply
import Verif.Lemmas.PlyWrite
import Verif.Props.Ply
import Verif.Spec.Boundary
import Verif.Props.Boundary
import Verif.Model.Track
import Verif.Spec.Track
import Verif.Lemmas.BuildMap
import Verif.Lemmas.Track
import Verif.Lemmas.Identity
import Verif.Lemmas.TrackBuild
import Verif.Lemmas.TrackCopy
import Verif.Props.TrackHistory
import Verif.Props.TrackCopy
import Verif.Lemmas.TrackWitness
import Verif.Props.TrackFalse
import Verif.Props.TrackApi
import Verif.Props.SceneLoad
import Verif.Props.Edges
import Verif.Model.Texture
import Verif.Spec.Texture
import Verif.Lemmas.Texture
import Verif.Props.Texture
import Verif.Model.Arrays
import Verif.Props.Arrays
import Verif.Props.Quaternion
import Verif.Model.PoseHeap
import Verif.Spec.PoseHeap
import Verif.Lemmas.PoseHeap
import Verif.Props.PoseHeap
import Verif.Model.TinyGltf
import Verif.Spec.TinyGltf
import Verif.Lemmas.TinyJson
import Verif.Lemmas.TinyParse
import Verif.Lemmas.TinyMaterial
import Verif.Lemmas.TinyLoad
import Verif.Lemmas.TinySave
import Verif.Lemmas.TinyDocument
import Verif.Lemmas.TinyGltf
import Verif.Lemmas.TinyGlb
import Verif.Lemmas.TinyExtract
import Verif.Lemmas.TinyHistory
import Verif.Lemmas.TinyExample
import Verif.Lemmas.TinyCut
import Verif.Lemmas.TinyMissing
import Verif.Props.TinyGltf
import Verif.Props.TrackPosed
import Verif.Model.Objects
import Verif.Spec.Objects
import Verif.Lemmas.Objects
import Verif.Lemmas.ObjectsOps
import Verif.Lemmas.ObjectsStep
import Verif.Lemmas.ObjectsRun
import Verif.Lemmas.ObjectsHist
import Verif.Props.Objects
import Verif.Model.Project
import Verif.Spec.Project
import Verif.Lemmas.Project
import Verif.Lemmas.ProjectKilled
import Verif.Lemmas.ProjectExample
import Verif.Props.Project
import Verif.Props.ProjectEqual
import Verif.Spec.GlbJson
import Verif.Props.GlbJson
import Verif.Model.Double
import Verif.Lemmas.Double
import Verif.Model.FloatAp
import Verif.Spec.FloatAp
import Verif.Lemmas.FloatAp
import Verif.Lemmas.FloatApBound
import Verif.Props.FloatAp
import Verif.Lemmas.FloatScores
import Verif.Props.FloatScores
import Verif.Model.FloatVoxel
import Verif.Spec.FloatVoxel
import Verif.Lemmas.FloatVoxel
import Verif.Props.FloatVoxel
import Verif.Model.FloatRotation
import Verif.Lemmas.FloatRotation
import Verif.Lemmas.FloatSafe
import Verif.Props.FloatRotation
import Verif.Model.FloatPerceptual
import Verif.Lemmas.FloatPerceptual
import Verif.Props.FloatPerceptual
import Verif.Props.FloatRoomScale
import Verif.Props.FloatPoints
import Verif.Model.FloatPose
import Verif.Spec.FloatPose
import Verif.Lemmas.FloatPose
import Verif.Props.FloatPose
import Verif.Model.FloatBBox
import Verif.Spec.FloatBBox
import Verif.Props.FloatBBox
import Verif.Model.MultiImage
import Verif.Props.MultiImage
import Verif.Model.TiffMemory
import Verif.Lemmas.TiffMemory
import Verif.Props.TiffMemory
import Verif.Props.ProjectLoad
import Verif.Model.FloatRms
import Verif.Lemmas.FloatRms
import Verif.Props.FloatRms
import Verif.Model.FullDisk
import Verif.Props.FullDisk
import Verif.Model.FloatRigid
import Verif.Spec.FloatRigid
import Verif.Lemmas.FloatRigid
import Verif.Props.FloatRigid
import Verif.Spec.GltfForeign
import Verif.Props.GltfForeign
import Verif.Model.FloatRange
import Verif.Spec.FloatRange
import Verif.Lemmas.FloatRange
import Verif.Props.FloatRange
import Verif.Spec.XmlAgain
import Verif.Lemmas.XmlAgain
import Verif.Props.XmlAgain
import Verif.Model.PointCloudText
import Verif.Lemmas.PointCloudText
import Verif.Props.PointCloudText
import Verif.Lemmas.GltfColored
import Verif.Props.GltfColored
import Verif.Props.SceneMore
import Verif.Model.MeasureTime
import Verif.Props.MeasureTime
import Verif.Model.Access
import Verif.Props.Access
import Verif.Lemmas.Single
import Verif.Model.FloatBox
import Verif.Props.FloatBox
import Verif.Model.VectorFns
import Verif.Props.VectorFns
import Verif.Model.Close
import Verif.Props.Close
import Verif.Model.DownloaderMain
import Verif.Props.DownloaderMain
import Verif.Model.Uniform
import Verif.Props.Uniform
import Verif.Model.Show
import Verif.Props.Show
import Verif.Model.Setup
import Verif.Props.Setup
import Verif.Model.Plots
import Verif.Props.Plots
import Verif.Model.PicoJson
import Verif.Props.PicoJson
import Verif.Lemmas.PicoJsonSteps
import Verif.Spec.PicoJson
import Verif.Props.PicoJsonText
import Verif.Model.Base64
import Verif.Props.Base64
import Verif.Props.Base64Buffer
import Verif.Props.GeometryColumns
import Verif.Props.Small
import Verif.Model.Wrap
import Verif.Spec.Wrap
import Verif.Props.Wrap
import Verif.Spec.PicoJsonString
import Verif.Lemmas.PicoJsonString
import Verif.Props.PicoJsonString
import Verif.Spec.PicoJsonGrammar
import Verif.Props.PicoJsonGrammar
