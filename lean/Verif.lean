import Verif.Audit
import Verif.Broadphase.AABB
import Verif.Broadphase.FatBox
import Verif.Broadphase.Raycast
import Verif.Broadphase.Tree
import Verif.Broadphase.TreeFix
import Verif.Broadphase.TreeHist
import Verif.Broadphase.TreeInv
import Verif.Broadphase.TreeLemmas
import Verif.Broadphase.TreeOps
import Verif.Contacts.Lemmas
import Verif.Contacts.Listen
import Verif.Contacts.More
import Verif.Contacts.Query
import Verif.Contacts.Reduce
import Verif.Contacts.Warm
import Verif.Contacts.WarmLemmas
import Verif.Containers.Array
import Verif.Containers.ArrayLemmas
import Verif.Containers.Deque
import Verif.Containers.DequeLemmas
import Verif.Containers.Float32
import Verif.Containers.HashLemmas
import Verif.Containers.HashLemmas2
import Verif.Containers.HashLemmas3
import Verif.Containers.HashTable
import Verif.Containers.Stack
import Verif.Dynamics.Body
import Verif.Dynamics.Inv
import Verif.Dynamics.Sleep
import Verif.Dynamics.World
import Verif.Engine.ColumnData
import Verif.Engine.ColumnDataLemmas
import Verif.Engine.Columns
import Verif.Engine.Components
import Verif.Engine.ComponentsLemmas
import Verif.Engine.Entity
import Verif.Engine.Logger
import Verif.Engine.Profiler
import Verif.Engine.Settings
import Verif.Height.Field
import Verif.Hull.Ends
import Verif.Hull.Lists
import Verif.Hull.Points
import Verif.Hull.Pool
import Verif.Hull.Quick
import Verif.Hull.Start
import Verif.Hull.Tetra
import Verif.Hull.Topo
import Verif.Islands.Lemmas
import Verif.Islands.Model
import Verif.Math.Angles
import Verif.Math.Ext
import Verif.Math.Geometry
import Verif.Math.Helpers
import Verif.Math.Integers
import Verif.Math.OpenGL
import Verif.Math.Rigid
import Verif.Math.Rounding
import Verif.Math.Vec3
import Verif.Math.Vector
import Verif.Memory.Base
import Verif.Memory.Frame
import Verif.Memory.Heap
import Verif.Memory.HeapLemmas
import Verif.Memory.HeapMem
import Verif.Memory.HeapOps
import Verif.Memory.Pool
import Verif.Memory.PoolLemmas
import Verif.Memory.Seg
import Verif.Mesh.HalfEdge
import Verif.Mesh.Lemmas
import Verif.Mesh.Triangles
import Verif.Mesh.VertexArrays
import Verif.Narrow.Algorithms
import Verif.Narrow.Dispatch
import Verif.Narrow.Gjk
import Verif.Narrow.GjkEnds
import Verif.Narrow.GjkLoop
import Verif.Narrow.GjkSimplex
import Verif.Narrow.GjkStep
import Verif.Narrow.GjkTetra
import Verif.Narrow.Middle
import Verif.Narrow.MiddleLemmas
import Verif.Narrow.Round
import Verif.Narrow.RoundPoly
import Verif.Narrow.Sat
import Verif.Narrow.SatCapsule
import Verif.Narrow.SatGeom
import Verif.Narrow.SatSegGeom
import Verif.Narrow.Scaled
import Verif.Narrow.Session
import Verif.Narrow.Smooth
import Verif.Pairs.Store
import Verif.Pairs.StoreLemmas
import Verif.Props.AABB
import Verif.Props.Algorithms
import Verif.Props.Angles
import Verif.Props.Apart
import Verif.Props.ApartExamples
import Verif.Props.Array
import Verif.Props.Balance
import Verif.Props.BalanceExamples
import Verif.Props.BalanceRun
import Verif.Props.Bodies
import Verif.Props.BodiesExamples
import Verif.Props.BodyJoints
import Verif.Props.BodyRay
import Verif.Props.Bounce
import Verif.Props.Bounds
import Verif.Props.Clipping
import Verif.Props.ColumnData
import Verif.Props.Columns
import Verif.Props.Common
import Verif.Props.Components
import Verif.Props.ConcaveMesh
import Verif.Props.ConeLimit
import Verif.Props.ContactEnergy
import Verif.Props.ContactEnergyBounce
import Verif.Props.ContactEnergyExamples
import Verif.Props.ContactEnergyStep
import Verif.Props.ContactExamples
import Verif.Props.ContactSolver
import Verif.Props.ContactTurn
import Verif.Props.ContactTurnExamples
import Verif.Props.Contacts
import Verif.Props.DebugDraw
import Verif.Props.DebugExamples
import Verif.Props.DebugGrid
import Verif.Props.DebugScene
import Verif.Props.DebugSphere
import Verif.Props.Deque
import Verif.Props.Dispatch
import Verif.Props.Dynamics
import Verif.Props.Entity
import Verif.Props.Enumerate
import Verif.Props.Exchange
import Verif.Props.ExchangeExamples
import Verif.Props.Fall
import Verif.Props.Frame
import Verif.Props.Friction
import Verif.Props.Galileo
import Verif.Props.GalileoExamples
import Verif.Props.Gjk
import Verif.Props.GjkExamples
import Verif.Props.HalfEdge
import Verif.Props.Hash
import Verif.Props.Heap
import Verif.Props.HeightClosest
import Verif.Props.HeightField
import Verif.Props.HeightRay
import Verif.Props.Helpers
import Verif.Props.HingeAngle
import Verif.Props.HingeLimit
import Verif.Props.Hull
import Verif.Props.HullPoints
import Verif.Props.HullStart
import Verif.Props.Integers
import Verif.Props.Islands
import Verif.Props.Isotropy
import Verif.Props.IsotropyExamples
import Verif.Props.JointConverge
import Verif.Props.JointEnergy
import Verif.Props.JointExamples
import Verif.Props.JointHold
import Verif.Props.JointImpulses
import Verif.Props.JointLimits
import Verif.Props.JointMake
import Verif.Props.JointMakeExamples
import Verif.Props.JointPosition
import Verif.Props.JointSettings
import Verif.Props.JointStep
import Verif.Props.JointStepExact
import Verif.Props.JointStepExamples
import Verif.Props.JointVelocity
import Verif.Props.JointWarm
import Verif.Props.Kinematic
import Verif.Props.KinematicExamples
import Verif.Props.Listen
import Verif.Props.Logger
import Verif.Props.Mass
import Verif.Props.MassUnit
import Verif.Props.MassUnitExamples
import Verif.Props.Material
import Verif.Props.MaterialContact
import Verif.Props.MeshMass
import Verif.Props.Middle
import Verif.Props.Newton
import Verif.Props.NewtonExamples
import Verif.Props.OpenGL
import Verif.Props.Pairs
import Verif.Props.Points
import Verif.Props.Pool
import Verif.Props.PoolReuse
import Verif.Props.PositionExamples
import Verif.Props.Profiler
import Verif.Props.Query
import Verif.Props.QueryGroups
import Verif.Props.RayBox
import Verif.Props.RayCapsule
import Verif.Props.RayExamples
import Verif.Props.RayMesh
import Verif.Props.RaySphere
import Verif.Props.RayTriangle
import Verif.Props.Raycast
import Verif.Props.Reactivate
import Verif.Props.Round
import Verif.Props.RoundCapsules
import Verif.Props.RoundExamples
import Verif.Props.RoundPairs
import Verif.Props.RoundPoly
import Verif.Props.RoundPolyCapsule
import Verif.Props.RoundPolyData
import Verif.Props.RoundPolyExamples
import Verif.Props.RoundPolySphere
import Verif.Props.RoundTests
import Verif.Props.Sat
import Verif.Props.SatBox
import Verif.Props.SatCapsule
import Verif.Props.SatCapsuleContact
import Verif.Props.SatCapsuleTest
import Verif.Props.SatContact
import Verif.Props.SatEdges
import Verif.Props.SatExamples
import Verif.Props.SatMissed
import Verif.Props.SatReal
import Verif.Props.SatSphere
import Verif.Props.SatTest
import Verif.Props.Scaled
import Verif.Props.SceneRay
import Verif.Props.Segments
import Verif.Props.Session
import Verif.Props.Settings
import Verif.Props.SimFlag
import Verif.Props.Sleeping
import Verif.Props.SliderStops
import Verif.Props.Smooth
import Verif.Props.SmoothExamples
import Verif.Props.Spin
import Verif.Props.SpinExamples
import Verif.Props.Stack
import Verif.Props.Transform
import Verif.Props.Tree
import Verif.Props.TriMesh
import Verif.Props.Vector
import Verif.Props.VertexArrays
import Verif.Props.Waking
import Verif.Props.WarmStart
import Verif.Props.World
import Verif.Props.WorldDisagree
import Verif.Scene.DebugDraw
import Verif.Scene.Inv
import Verif.Scene.Model
import Verif.Shapes.Bounds
import Verif.Shapes.Cells
import Verif.Shapes.CellsFill
import Verif.Shapes.ConcaveMesh
import Verif.Shapes.Facets
import Verif.Shapes.Mass
import Verif.Shapes.Points
import Verif.Shapes.Ray
import Verif.Shapes.Revolve
import Verif.Shapes.Solids
import Verif.Solver.Contact
import Verif.Solver.Flip
import Verif.Solver.Frame
import Verif.Solver.FrameLoops
import Verif.Solver.Friction
import Verif.Solver.Heavier
import Verif.Solver.JointKick
import Verif.Solver.JointLemmas
import Verif.Solver.JointMake
import Verif.Solver.JointSettings
import Verif.Solver.Joints
import Verif.Solver.Lemmas
import Verif.Solver.Local
import Verif.Solver.Material
import Verif.Solver.Position
import Verif.Solver.PositionLemmas
import Verif.Solver.Run
import Verif.Solver.Still
import Verif.Solver.Turned
import Verif.Solver.Whole
import Verif.World.BodyJoints
import Verif.World.BodyJointsInv
import Verif.World.Build
import Verif.World.Common
import Verif.World.Examples
import Verif.World.Hist
import Verif.World.Inv
import Verif.World.Joints
import Verif.World.Model
import Verif.World.Ops
import Verif.World.Remove
import Verif.World.SimFlag
import Verif.World.Sleep
import Verif.World.Step
import Verif.World.Update
import Verif.World.Wake
