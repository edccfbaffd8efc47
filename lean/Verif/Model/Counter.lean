/-!
# The session counter with several event loops

With `Multicore: true` (msc_server/config/config.yaml, server.go:50) callbacks of different connections run on
different event loops at the same time. Only the accesses to `activeSessions` are modelled: the threshold test
of on_open.go:15, which takes no lock; the increment of server.go:88, under the server's lock; the decrement of
on_close.go:29, which takes no lock. An increment or decrement is a read followed by a write.
-/

namespace Gosms.Counter

/-- `active` is the counter, `sessions` the number of open connections that have a session. `passed` callbacks have passed the
threshold test; `inc` is the value read by the callback inside the lock; `decs` are the values read by closing callbacks.
`refused` counts connections turned away. msc_server/server/server.go:28-40 -/
structure State where
  active : Int := 0
  sessions : Nat := 0
  passed : Nat := 0
  inc : Option Int := none
  decs : List Int := []
  refused : Nat := 0
deriving DecidableEq, Repr

/-- The accesses at msc_server/server/on_open.go:15, server.go:88 and on_close.go:29. -/
inductive Step where
  | test                 -- on_open.go:15
  | incRead | incWrite   -- server.go:88
  | decRead              -- on_close.go:29
  | decWrite (i : Nat)
deriving DecidableEq, Repr

/-- One access. Accesses that are not possible change nothing. msc_server/server/on_open.go:15-20, server.go:81-90,
on_close.go:26-35 -/
def step (cap : Int) (s : State) : Step → State
  | .test => if s.active ≥ cap then { s with refused := s.refused + 1 } else { s with passed := s.passed + 1 }
  | .incRead => if 0 < s.passed ∧ s.inc = none then { s with passed := s.passed - 1, inc := some s.active } else s
  | .incWrite => match s.inc with
    | some v => { s with inc := none, active := v + 1, sessions := s.sessions + 1 }
    | none => s
  | .decRead => if 0 < s.sessions then { s with sessions := s.sessions - 1, decs := s.decs ++ [s.active] } else s
  | .decWrite i => match s.decs[i]? with
    | some v => { s with decs := s.decs.eraseIdx i, active := v - 1 }
    | none => s

/-- A history of the accesses at msc_server/server/on_open.go:15, server.go:88 and on_close.go:29. -/
def run (cap : Int) (steps : List Step) : State := steps.foldl (step cap) {}

end Gosms.Counter
