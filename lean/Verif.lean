import Verif.Lemmas.Dict
import Verif.Lemmas.Jacobian
import Verif.Lemmas.Quaternion
import Verif.Lemmas.Soft
import Verif.Lemmas.SoftGlobal
import Verif.Lemmas.SoftStep
import Verif.Lemmas.Vec
import Verif.Lemmas.While
import Verif.Model.AABB
import Verif.Model.BVH
import Verif.Model.Barycentric
import Verif.Model.Blocking
import Verif.Model.Collision
import Verif.Model.Constraints
import Verif.Model.CoordSys
import Verif.Model.Dict
import Verif.Model.ExpMap
import Verif.Model.ExpMapDeriv
import Verif.Model.FullSim
import Verif.Model.FullSoft
import Verif.Model.Grid3
import Verif.Model.GuiView
import Verif.Model.Heap
import Verif.Model.IKDemo
import Verif.Model.InverseKin
import Verif.Model.KDOP
import Verif.Model.LinSolve
import Verif.Model.Mass
import Verif.Model.Materials
import Verif.Model.MeanCurvature
import Verif.Model.MeshTopology
import Verif.Model.ParseString
import Verif.Model.Plotting
import Verif.Model.PolyText
import Verif.Model.Polynomial
import Verif.Model.Profile
import Verif.Model.Prox
import Verif.Model.ProxSolver
import Verif.Model.Quaternion
import Verif.Model.RigidApi
import Verif.Model.RigidBody
import Verif.Model.RigidCmd
import Verif.Model.RigidStep
import Verif.Model.SceneAll
import Verif.Model.SceneChain
import Verif.Model.SceneGear
import Verif.Model.SceneLattice
import Verif.Model.SceneMail
import Verif.Model.SceneTemple
import Verif.Model.Scenes
import Verif.Model.Shapes
import Verif.Model.Sinc
import Verif.Model.SoftApi
import Verif.Model.SoftApp
import Verif.Model.SoftCollision
import Verif.Model.SoftFem
import Verif.Model.SoftMech
import Verif.Model.SoftProfile
import Verif.Model.SoftStep
import Verif.Model.SpatialHash
import Verif.Model.SurfaceMesh
import Verif.Model.TestTools
import Verif.Model.Tetrahedron
import Verif.Model.UniqueName
import Verif.Model.Urdf
import Verif.Model.Usd
import Verif.Model.UsdApp
import Verif.Model.Vec
import Verif.Model.Vector3
import Verif.Model.VolumeMesh
import Verif.Model.While
import Verif.Model.WriteXml
import Verif.Props.AABB
import Verif.Props.AngleAxis
import Verif.Props.AxisSort
import Verif.Props.BVH
import Verif.Props.BVHBuild
import Verif.Props.Barycentric
import Verif.Props.Blocking
import Verif.Props.Circulator
import Verif.Props.ClosedMesh
import Verif.Props.Collision
import Verif.Props.CollisionComplete
import Verif.Props.ContactSolve
import Verif.Props.Contacts
import Verif.Props.CoordSys
import Verif.Props.CubeMesh
import Verif.Props.Euler
import Verif.Props.ExpMap
import Verif.Props.ExpMapDeriv
import Verif.Props.FullContact
import Verif.Props.FullHull
import Verif.Props.FullScene
import Verif.Props.FullSim
import Verif.Props.FullSoft
import Verif.Props.FullSoftRun
import Verif.Props.FullSoftScene
import Verif.Props.FullSoftSolve
import Verif.Props.Galilean
import Verif.Props.GalileanFull
import Verif.Props.GalileanRun
import Verif.Props.Gear
import Verif.Props.GearCap
import Verif.Props.GearMesh
import Verif.Props.GearPair
import Verif.Props.GearSolid
import Verif.Props.GearSolid2
import Verif.Props.GearSolid3
import Verif.Props.GearVolume
import Verif.Props.Grid3
import Verif.Props.GuiScene
import Verif.Props.GuiView
import Verif.Props.Heap
import Verif.Props.Hinges
import Verif.Props.IKAngles
import Verif.Props.IKChains
import Verif.Props.IKExamples
import Verif.Props.IKFinite
import Verif.Props.IKFiniteLimit
import Verif.Props.IKGradient
import Verif.Props.IKHessian
import Verif.Props.IKHessianCode
import Verif.Props.IKJacobian
import Verif.Props.IKMotion
import Verif.Props.IKPose
import Verif.Props.IKReach
import Verif.Props.IKReach2
import Verif.Props.IKReach3
import Verif.Props.IKTree
import Verif.Props.KDOP
import Verif.Props.Mass
import Verif.Props.MassXform
import Verif.Props.Materials
import Verif.Props.MeanCurvature
import Verif.Props.MeshDisjoint
import Verif.Props.MeshShapes
import Verif.Props.MeshStar
import Verif.Props.MeshSurfaceVolume
import Verif.Props.MeshTopology
import Verif.Props.MeshTorus
import Verif.Props.MeshTransform
import Verif.Props.MeshVolume
import Verif.Props.MomentumRun
import Verif.Props.ParallelGS
import Verif.Props.ParseString
import Verif.Props.ParseString2
import Verif.Props.ParseString3
import Verif.Props.ParseString4
import Verif.Props.ParseString5
import Verif.Props.Plotting
import Verif.Props.Polar
import Verif.Props.PolyText
import Verif.Props.Polynomial
import Verif.Props.PostStab
import Verif.Props.Profile
import Verif.Props.ProfileRun
import Verif.Props.Prox
import Verif.Props.ProxEllipsoid
import Verif.Props.ProxFeasible
import Verif.Props.ProxRigid
import Verif.Props.ProxSolver
import Verif.Props.Quaternion
import Verif.Props.RefitFresh
import Verif.Props.Resume
import Verif.Props.ResumeScene
import Verif.Props.ResumeSoft
import Verif.Props.RigidApi
import Verif.Props.RigidCmd
import Verif.Props.RigidCmdMass
import Verif.Props.RigidCmdRun
import Verif.Props.RigidCmdScene
import Verif.Props.RigidExamples
import Verif.Props.RigidExamples2
import Verif.Props.RigidForces
import Verif.Props.RigidHistory
import Verif.Props.RigidSim
import Verif.Props.RigidStep
import Verif.Props.SceneAll
import Verif.Props.SceneAll2
import Verif.Props.SceneAll3
import Verif.Props.SceneAll4
import Verif.Props.SceneAll5
import Verif.Props.SceneAll6
import Verif.Props.SceneAll7
import Verif.Props.SceneApart
import Verif.Props.SceneArch
import Verif.Props.SceneBase
import Verif.Props.SceneBuild
import Verif.Props.SceneChain
import Verif.Props.SceneDome
import Verif.Props.SceneFall
import Verif.Props.SceneFall2
import Verif.Props.SceneGear
import Verif.Props.SceneGear2
import Verif.Props.SceneGear3
import Verif.Props.SceneLattice
import Verif.Props.SceneMail
import Verif.Props.SceneMail2
import Verif.Props.SceneMail3
import Verif.Props.SceneMail4
import Verif.Props.ScenePillar
import Verif.Props.SceneRome
import Verif.Props.SceneRuns
import Verif.Props.SceneScaled
import Verif.Props.SceneShape
import Verif.Props.SceneTemple
import Verif.Props.SceneTemple2
import Verif.Props.SceneTemple3
import Verif.Props.SceneTemple4
import Verif.Props.SceneTemple5
import Verif.Props.SceneTower
import Verif.Props.SelfCollision
import Verif.Props.Sinc
import Verif.Props.Slerp
import Verif.Props.SoftApp
import Verif.Props.SoftAppBeam
import Verif.Props.SoftAppFilm
import Verif.Props.SoftAppRun
import Verif.Props.SoftAppScene
import Verif.Props.SoftAppSheet
import Verif.Props.SoftAssembly
import Verif.Props.SoftCollision
import Verif.Props.SoftCollisionComplete
import Verif.Props.SoftContact
import Verif.Props.SoftDirichlet
import Verif.Props.SoftElastic
import Verif.Props.SoftEnergy
import Verif.Props.SoftExamples
import Verif.Props.SoftFindings
import Verif.Props.SoftHistory
import Verif.Props.SoftMass
import Verif.Props.SoftMomentum
import Verif.Props.SoftNewton
import Verif.Props.SoftNormal
import Verif.Props.SoftProfile
import Verif.Props.SoftProfileOutcome
import Verif.Props.SoftSetters
import Verif.Props.SoftSim
import Verif.Props.SoftTotals
import Verif.Props.SolidMesh
import Verif.Props.SpatialHash
import Verif.Props.SpatialHashPhase
import Verif.Props.StateStorage
import Verif.Props.Subdivision
import Verif.Props.TestTools
import Verif.Props.TetFaces
import Verif.Props.Tetrahedron
import Verif.Props.Translation
import Verif.Props.TranslationCD
import Verif.Props.TranslationStart
import Verif.Props.UniqueName
import Verif.Props.Urdf
import Verif.Props.UrdfFindings
import Verif.Props.UrdfLinks
import Verif.Props.UrdfLoop
import Verif.Props.UrdfParse
import Verif.Props.UrdfRuns
import Verif.Props.Usd
import Verif.Props.UsdApp
import Verif.Props.UsdScene
import Verif.Props.Variance
import Verif.Props.Vector3
import Verif.Props.WriteXml
import Verif.Props.WriteXml2
import Verif.Props.WriteXml3
import Verif.Props.XmlText
import Verif.Props.XmlText2
import Verif.Spec.BVH
import Verif.Spec.ExpMap
import Verif.Spec.Linear
import Verif.Spec.Mass
import Verif.Spec.Numeral
import Verif.Spec.PolyText
import Verif.Spec.Rigid
import Verif.Spec.Scene
import Verif.Spec.Usd
import Verif.Spec.Xml
