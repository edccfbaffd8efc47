import Verif.Model.Names
import Verif.Model.Cmpp
import Verif.Model.Smgp

/-!
# Heartbeats of a client session

msc_client/session/session.go `HealthCheck` and `ActiveTest`, and the places that update `activeTime`. `HealthCheck` is
called by the pool's sort (session_factory.go:292 and, through `LruPriority`, by every comparison), by `PeekSession` and
by the receiver, so its calls come in any number and at any time. Times are in nanoseconds. Calls are atomic here; what
closing in the middle of one does is in Model/ClientConc.
-/

namespace Gosms.ClientHeartbeat

/-- `live`: the first line of `HealthCheck` (session.go:264): logged in, and connection, account and channel there.
`wire`: the heartbeats written. -/
structure Sess where
  proto : Proto
  live : Bool := true
  activeTime : Int
  wire : List Bytes := []
deriving DecidableEq, Repr

/-- time.Minute. As at msc_client/session/session.go:267. -/
def minute : Int := 60000000000

/-- msc_client/session/session.go:279-290: the packet; SGIP has none. `Encode` of a header does not fail. -/
def packet (p : Proto) (seq : UInt32) : Option Bytes :=
  match p with
  | .cmpp => Cmpp.activeTestEncode (Cmpp.newActiveTest seq)
  | .sgip => none
  | .smgp => Smgp.activeTestEncode (Smgp.newActiveTest seq)

/-- msc_client/session/session.go:276-299 `ActiveTest`. The value is its error, which is nil in each branch; `ok` is
whether `Write` succeeds. -/
def activeTest (s : Sess) (seq : UInt32) (ok : Bool) : Bool × Sess :=
  match packet s.proto seq with
  | none => (false, s)
  | some b => if ok then (false, { s with wire := s.wire ++ [b] }) else (false, s)

/-- msc_client/session/session.go:263-274 `HealthCheck` -/
def healthCheck (s : Sess) (now : Int) (seq : UInt32) (ok : Bool) : Bool × Sess :=
  if s.live && decide (s.activeTime + minute < now) then
    let r := activeTest s seq ok
    if r.1 then (false, r.2) else (s.live, r.2)
  else (s.live, s)

/-- What happens to a session: `check`: a call of `HealthCheck`; `received`: a packet of the carrier (the first line of
onTrafficCmpp, onTrafficSmgp, onTrafficSgip; packets that close the session are a `received` and a `close`); `sent`:
`AddCounterN` after sending (session.go:69-75); `close` (session.go:86-101). -/
inductive Step where
  | check (now : Int) (seq : UInt32) (ok : Bool)
  | received (now : Int)
  | sent (now : Int)
  | close
deriving DecidableEq, Repr

/-- msc_client/session/session.go:69-75, 86-101, 263-274 -/
def step (s : Sess) : Step → Sess
  | .check now seq ok => (healthCheck s now seq ok).2
  | .received now => { s with activeTime := now }
  | .sent now => { s with activeTime := now }
  | .close => { s with live := false }

/-- A session created at `t0` (session.go:54-58) and its history. -/
def run (p : Proto) (t0 : Int) (steps : List Step) : Sess := steps.foldl step { proto := p, activeTime := t0 }

end Gosms.ClientHeartbeat
