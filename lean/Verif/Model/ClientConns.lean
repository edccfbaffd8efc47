import Verif.Model.ClientLogin

/-!
# The connections of a carrier's pool

msc_client/session_factory.go:108-117 (the first connection), 281-314 `lruSort`, 334-347 `newConnect`, with msc_client/session/session.go:48-60
`NewSession` and 86-101 `Close`. Connections are numbered in the order they are opened; a session is the number of its connection and its
state. Runs of `lruSort` and attempts to connect are single steps (in between: Model/ClientPoolFill.lean, Model/ClientConc.lean).

A connection no variable refers to any more may be closed by Go's garbage collector, at any time or never: step `collect`.
-/

namespace Gosms.ClientConns
open Gosms.ClientLogin

/-- The sessions of msc_client/session_factory.go:35-44 and the connections made for them (lines 109-117, 334-347). -/
structure State where
  /-- how many connections were opened -/
  opened : Nat := 0
  /-- the connections of the process that are open -/
  alive : List Nat := []
  pool : List (Nat × Stat) := []

/-- msc_client/session_factory.go:281-301, 334-347, msc_client/session/session.go:118-146 -/
inductive Step where
  | unreachable                           -- `net.Dial` fails
  | dial (writeErr : Bool) (got : Got)    -- `net.Dial` succeeds; how writing the login and reading the answer went
  | lost (i : Nat)                        -- the receiver of session `i` closes it, session.go:118-146
  | tick                                  -- session_factory.go:289-301
  | collect (i : Nat)
deriving DecidableEq, Repr

/-- session.go:86-101 `Close` -/
def close (alive : List Nat) (s : Nat × Stat) : List Nat := if s.2 = .closing then alive else alive.filter (· ≠ s.1)

/-- One step. `p` and `version` are the carrier's protocol and the account's version. msc_client/session_factory.go:289-301,
334-347 -/
def step (p : Proto) (version : UInt8) (s : State) : Step → State
  | .unreachable => s
  | .dial writeErr got =>
    let s1 := { s with opened := s.opened + 1, alive := s.opened :: s.alive }
    match newSession p version writeErr got with
    | none => s1
    | some stat => { s1 with pool := s1.pool ++ [(s.opened, stat)] }
  | .lost i =>
    match s.pool.find? fun x => x.1 = i with
    | some x => { s with alive := close s.alive x, pool := s.pool.map fun y => if y.1 = i then (i, .closing) else y }
    | none => s
  | .tick =>
    { s with alive := (s.pool.filter fun x => !healthy x.2).foldl close s.alive, pool := s.pool.filter fun x => healthy x.2 }
  | .collect i => if s.pool.any fun x => x.1 = i then s else { s with alive := s.alive.filter (· ≠ i) }

/-- A history of msc_client/session_factory.go:281-314 and 334-347 from a new factory on. -/
def run (p : Proto) (version : UInt8) (steps : List Step) : State := steps.foldl (step p version) {}

end Gosms.ClientConns
