/-!
Model of the default logger (src/utils/DefaultLogger.cpp, include/reactphysics3d/utils/DefaultLogger.h, Logger.h).

What a destination has been sent is the list of its lines.  Simplification: the text of a line is the message with its
level; time, world, category and place in the source do not matter here.  The files can be opened, each destination has a
stream of its own, and the calls come one after the other (`mMutex`).
-/

namespace RP3D
namespace Log

/-- `Logger::Level` (Logger.h:48). -/
inductive Level
  | error | warning | information
deriving DecidableEq, Repr

/-- The values of the levels (Logger.h:48). -/
def Level.val : Level → Nat
  | .error => 1
  | .warning => 2
  | .information => 4

/-- `DefaultLogger::Format` (DefaultLogger.h:54). -/
inductive Format
  | text | html
deriving DecidableEq, Repr

/-- A line of the output: `getHeader`, `format`, `getTail` of the formatter. -/
inductive Line
  | header (f : Format)
  | entry (f : Format) (l : Level) (m : String)
  | tail (f : Format)
deriving DecidableEq, Repr

/-- `Destination` (DefaultLogger.h:359-391) and what was written to its stream. -/
structure Dest where
  flag : Nat
  format : Format
  out : List Line
deriving DecidableEq, Repr

/-- `mDestinations`, and a record of the destinations that have been closed. -/
structure Logger where
  dests : List Dest
  closed : List Dest
deriving DecidableEq, Repr

/-- `static_cast<int>` of an `uint` of 32 bits (DefaultLogger.h:430, 473). -/
def toInt (n : Nat) : Int := if n < 2 ^ 31 then n else n - 2 ^ 32

/-- The constructors of `FileDestination` and `StreamDestination` (DefaultLogger.h:403-411, 455-460). -/
def Dest.make (flag : Nat) (f : Format) : Dest := ⟨flag, f, [.header f]⟩

/-- `write` (DefaultLogger.h:427-433, 470-476). -/
def Dest.write (d : Dest) (l : Level) (m : String) : Dest :=
  if (l.val : Int) ≤ toInt d.flag then { d with out := d.out ++ [.entry d.format l m] } else d

/-- The destructors (DefaultLogger.h:414-424, 463-467). -/
def Dest.close (d : Dest) : Dest := { d with out := d.out ++ [.tail d.format] }

/-- The calls of the user and of the library. -/
inductive Op
  | add (flag : Nat) (f : Format)
  | log (l : Level) (m : String)
  | removeAll
deriving DecidableEq, Repr

/-- A new logger (DefaultLogger.cpp:33-39). -/
def Logger.empty : Logger := ⟨[], []⟩

/-- `addFileDestination`, `addStreamDestination`, `log`, `removeAllDestinations` (DefaultLogger.cpp:65-72, 75-82, 104-119, 85-101). -/
def Logger.step (s : Logger) : Op → Logger
  | .add flag f => { s with dests := s.dests ++ [Dest.make flag f] }
  | .log l m => { s with dests := s.dests.map fun d => d.write l m }
  | .removeAll => ⟨[], s.closed ++ s.dests.map Dest.close⟩

def Logger.run (s : Logger) (h : List Op) : Logger := h.foldl Logger.step s

end Log
end RP3D
