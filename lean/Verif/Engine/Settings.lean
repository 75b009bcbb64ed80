import Mathlib.Data.List.Basic

/-! Model of the settings of a world: the constructor, the setters and the getters of `PhysicsWorld` (PhysicsWorld.cpp:54-126,
663-669, 935-951, 957-1030; PhysicsWorld.h:78-131, 575-660) and the name of a world.

Simplification: numbers with a fraction are of an ordered type `K`, a vector is a triple; only the settings that can be changed later and the
name are kept. That `enableSleeping` wakes the bodies is in `Dynamics/*`. -/

namespace RP3D
namespace Settings

/-- `WorldSettings` (PhysicsWorld.h:78-117). -/
structure Given (K : Type) where
  worldName : String
  gravity : K × K × K
  isSleepingEnabled : Bool
  /-- `defaultVelocitySolverNbIterations`, a `uint16` -/
  nbVelocity : Nat
  /-- `defaultPositionSolverNbIterations`, a `uint16` -/
  nbPosition : Nat
  timeBeforeSleep : K
  sleepLinear : K
  sleepAngular : K

/-- The members of the world that a step reads (DynamicsSystem.cpp:142-153, PhysicsWorld.cpp:290, 334, 355, 875-915), `mName`
and the name under which the world writes to the log (`mConfig.worldName`). -/
structure World (K : Type) where
  name : String
  logName : String
  gravity : K × K × K
  gravityOn : Bool
  sleeping : Bool
  nbVelocity : Nat
  nbPosition : Nat
  timeBeforeSleep : K
  sleepLinear : K
  sleepAngular : K

/-- Conversion to `uint16`. -/
def toUint16 (n : Nat) : Nat := n % 2 ^ 16

/-- The generated name (PhysicsWorld.cpp:81-93); `n` is `mNbWorlds`. -/
def autoName (n : Nat) : String := if n > 0 then "world" ++ n.repr else "world"

/-- The constructor (PhysicsWorld.cpp:54-108) with the new value of `mNbWorlds`, a `uint32`. -/
def create {K : Type} (n : Nat) (g : Given K) : World K × Nat :=
  ({ name := if g.worldName = "" then autoName n else g.worldName
     logName := g.worldName
     gravity := g.gravity
     gravityOn := true
     sleeping := g.isSleepingEnabled
     nbVelocity := g.nbVelocity
     nbPosition := g.nbPosition
     timeBeforeSleep := g.timeBeforeSleep
     sleepLinear := g.sleepLinear
     sleepAngular := g.sleepAngular }, (n + 1) % 2 ^ 32)

/-- The setters. -/
inductive Op (K : Type)
  | gravity (v : K × K × K)
  | gravityOn (b : Bool)
  | sleeping (b : Bool)
  | nbVelocity (n : Nat)
  | nbPosition (n : Nat)
  | timeBeforeSleep (x : K)
  | sleepLinear (x : K)
  | sleepAngular (x : K)

/-- `setGravity` (969-975), `setIsGravityEnabled` (1024-1029), `enableSleeping` (935-951), `setNbIterationsVelocitySolver` (663-669; the argument
is a `uint16`, so the caller converts), `setNbIterationsPositionSolver` (957-963; the argument is a `uint32`, the member a `uint16`),
`setTimeBeforeSleep` (1011-1017), `setSleepLinearVelocity` (984-990), `setSleepAngularVelocity` (999-1005) of PhysicsWorld.cpp.  A
broken assertion is `none`. -/
def World.step {K : Type} [Zero K] [LE K] [DecidableLE K] (w : World K) : Op K → Option (World K)
  | .gravity v => some { w with gravity := v }
  | .gravityOn b => some { w with gravityOn := b }
  | .sleeping b => some { w with sleeping := b }
  | .nbVelocity n => some { w with nbVelocity := toUint16 n }
  | .nbPosition n => some { w with nbPosition := toUint16 n }
  | .timeBeforeSleep x => if 0 ≤ x then some { w with timeBeforeSleep := x } else none
  | .sleepLinear x => if 0 ≤ x then some { w with sleepLinear := x } else none
  | .sleepAngular x => if 0 ≤ x then some { w with sleepAngular := x } else none

def World.run {K : Type} [Zero K] [LE K] [DecidableLE K] (w : World K) : List (Op K) → Option (World K)
  | [] => some w
  | o :: h => (w.step o).bind fun w => w.run h

/-- Many worlds made one after the other (by any number of `PhysicsCommon`: the counter is static, PhysicsWorld.cpp:46). -/
def createAll {K : Type} (n : Nat) : List (Given K) → List (World K)
  | [] => []
  | g :: gs => (create n g).1 :: createAll (create n g).2 gs

end Settings
end RP3D
