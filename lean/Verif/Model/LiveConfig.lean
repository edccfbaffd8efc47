import Verif.Model.Random

/-!
# Configuration that changes while the process runs

The processes listen to changes of the configuration file (msc_server/bootstrap.go:37, msc_client/bootstrap.go:42), and some values are read each
time they are used. Modelled here: the two that make up the processing time of the simulator, msc_server/server/on_traffic.go:153-159, which are
read one after the other; and `max-conns`, msc_client/session_factory.go:281-314, which every run of `lruSort` reads once, before its loop.

Assumed of the configuration library, which is not part of the repository: each read of a value is the value of the configuration at that moment.

Left out: the shutdown signal and the goroutines that look for a session meanwhile (Model/ClientStop.lean, Model/ClientPoolFill.lean).
-/

namespace Gosms.LiveConfig

/-- Server.Mock.MinSubmitRespMs and Server.Mock.MaxSubmitRespMs of a configuration. Read at
msc_server/server/on_traffic.go:154-159. -/
structure Mock where
  minMs : Int
  maxMs : Int
deriving DecidableEq, Repr

/-- on_traffic.go:153-159 `mockRandPrecessTime`: `cfg t` is the configuration at time `t`; the minimum is read at `t1`, the maximum at `t2`. `none`
is a panic. -/
def processTime (cfg : Nat → Mock) (r t1 t2 : Nat) : Option Int := Random.processTime r (cfg t1).minMs (cfg t2).maxMs

/-- session_factory.go:282-286: the number of connections wanted. -/
def wanted (maxConns : Int) : Nat := if maxConns ≤ 0 then 2 else maxConns.toNat

/-- A carrier's pool. `dead`: the sessions whose `HealthCheck` fails. `filling`: the goroutine of the ticker is in the loop of
session_factory.go:303-313, with its variable `maxConns`. -/
structure State where
  maxConns : Int                   -- in the configuration now
  pool : List Nat := []
  dead : List Nat := []
  filling : Option Nat := none
deriving Repr

/-- A change of the configuration; a tick, an attempt to connect, or the end of a run of msc_client/session_factory.go:281-314;
a session that breaks. -/
inductive Step where
  | set (maxConns : Int)      -- the configuration changes
  | breaks (i : Nat)          -- a session becomes unusable
  | tick (kept : List Nat)    -- session_factory.go:282-301: the pool becomes the healthy sessions, in the order of the sort
  | dial (r : Option Nat)     -- one turn of the loop, session_factory.go:303-313: `newConnect` adds a session or fails
deriving DecidableEq, Repr

/-- The test of the loop, session_factory.go:303. -/
def goOn (want : Nat) (pool : List Nat) : Option Nat := if pool.length < want then some want else none

/-- msc_client/session_factory.go:281-314 -/
def step (s : State) : Step → State
  | .set c => { s with maxConns := c }
  | .breaks i => { s with dead := i :: s.dead }
  | .tick kept =>
    if s.filling = none ∧ kept.isPerm (s.pool.filter fun i => !s.dead.contains i) then
      { s with pool := kept, filling := goOn (wanted s.maxConns) kept }
    else s
  | .dial r =>
    match s.filling with
    | some want => { s with pool := s.pool ++ r.toList, filling := goOn want (s.pool ++ r.toList) }
    | none => s

/-- session_factory.go:109-117: the factory begins with one session at most. -/
def start (maxConns : Int) (first : Option Nat) : State := { maxConns, pool := first.toList }

/-- A history of msc_client/session_factory.go:281-314 and of the configuration. -/
def run (s : State) (steps : List Step) : State := steps.foldl step s

end Gosms.LiveConfig
