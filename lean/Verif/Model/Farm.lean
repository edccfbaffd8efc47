import Verif.Model.ServerTicks

/-!
# All connections of a server process

msc_server/server/server.go: gnet runs the handlers of every connection; each connection has its own session (session.go:44-56), and what
happens on one changes nothing of another. They share the process: a panic outside a goroutine pool ends it, and with it every connection
(Model/ServerTraffic.lean `crashed`). What else they share enters through what steps draw: the rate limiter, the accounts, the session counts, and the
generators of ids (codec/sequence.go:17-21).

Simplified: connections are numbered from the start, each with the protocol of the port it was accepted on (`Env`) and the time it was
opened; before its first step nothing happens on it. Connections a process accepts are in Model/Accept.lean.
-/

namespace Gosms.Farm
open ServerTraffic (Env)

/-- The sessions of msc_server/server/server.go:28-40, one for each connection, and whether the process has ended. -/
structure State where
  conns : Nat → ServerTicks.State
  down : Bool := false

/-- Something happens on connection `x.1`. msc_server/server/on_traffic.go:19-32, on_tick.go:19-47, on_close.go:14-24, each for
the session of one connection. -/
def step (gbEnc : Bytes → Option Bytes) (envs : Nat → Env) (s : State) (x : Nat × ServerTicks.Step) : State :=
  if s.down then s
  else
    let c := ServerTicks.step gbEnc (envs x.1) (s.conns x.1) x.2
    { conns := fun i => if i = x.1 then c else s.conns i, down := c.base.crashed }

/-- The process from its start; connection `i` is opened at `t0 i` (session.go:48-56). -/
def run (gbEnc : Bytes → Option Bytes) (envs : Nat → Env) (t0 : Nat → Int) (steps : List (Nat × ServerTicks.Step)) : State :=
  steps.foldl (step gbEnc envs) { conns := fun i => { lastUse := t0 i } }

end Gosms.Farm
