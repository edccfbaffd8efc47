import Verif.Model.ServerLife
import Verif.Model.ClientTraffic

/-!
# This library's client and server, joined by a network

A connection with both its ends: Model/ServerLife.lean, and the receiver of the client's session (msc_client/session/session.go:104-165,
Model/ClientTraffic.lean). The bytes the client writes arrive at the server in pieces of any length at any later time. Simplified: on the way back
the client reads whole packets (other reads end the session: Model/ClientStream.lean); what the client writes on its own account (its login, texts, its heartbeats)
is arbitrary; the answer to the login is read by the receiver too, which does nothing with an accepted one (it is read at session.go:167-262 before the
receiver is started); results are only changed by packets.
-/

namespace Gosms.Link

/-- The server's end; the bytes the client has written, and how many of them have arrived; how many of the packets the server has written the client has read;
whether the client's session is open (and its process runs); its results. msc_server/server/session.go:18-33, msc_client/session/session.go:19-31 -/
structure State where
  srv : ServerLife.State
  sent : Bytes := []
  gone : Nat := 0
  read : Nat := 0
  up : Bool := true
  cli : Client.State := {}

/-- Something other than an arrival happens at the server; the next (at most `n`) bytes arrive there; the client reads the next packet (with what its handling depends
on); the client writes a packet of its own. msc_server/server/on_traffic.go:19-32, on_tick.go:19-47, msc_client/session/session.go:104-165 -/
inductive Step where
  | server (x : ServerLife.Step)
  | arrive (n : Nat) (d : ServerTraffic.Draw) (now : Int)
  | read (ce : ClientTraffic.Env)
  | send (cmd seq : UInt32) (body : Bytes)

/-- A frame of the server. msc_server/server/on_tick.go:93, cmpp_submit.go:60-80 -/
def frame : ServerTicks.Item → Bytes
  | .reply x => x.2.1
  | .own f _ => f

/-- What is on the way to the server. msc_client/session/session.go:104-165 -/
def State.flight (s : State) : Bytes := s.sent.drop s.gone

/-- The client reads a packet and handles it. msc_client/session/session.go:116-150 -/
def reads (p : Proto) (ce : ClientTraffic.Env) (s : State) : State :=
  match s.srv.tk.wire[s.read]? with
  | none => s
  | some it =>
    let f := frame it
    match ClientTraffic.onTraffic p ce s.cli (rd32 ((f.drop 4).take 4)) (rd32 ((f.drop 8).take 4)) (f.drop 12) with
    | none => { s with read := s.read + 1, up := false }
    | some o => { s with read := s.read + 1, up := !o.closed, sent := s.sent ++ o.written.getD [], cli := o.st }

/-- One step. After its session is closed the client does nothing on the connection. msc_server/server/on_traffic.go:19-32,
msc_client/session/session.go:104-165 -/
def step (zeroAll : Bool) (gb : Bytes → Option Bytes) (e : ServerTraffic.Env) (s : State) : Step → State
  | .server (.data ..) => s
  | .server x => { s with srv := ServerLife.step zeroAll gb e s.srv x }
  | .arrive n d now =>
    if s.flight.take n = [] then s
    else { s with srv := ServerLife.step zeroAll gb e s.srv (.data (s.flight.take n) d now), gone := s.gone + (s.flight.take n).length }
  | .read ce => if s.up then reads e.proto ce s else s
  | .send cmd seq body =>
    if s.up then { s with sent := s.sent ++ (be32 (UInt32.ofNat (12 + body.length)) ++ be32 cmd ++ be32 seq ++ body) } else s

/-- A history of a connection opened at `t0`. msc_server/server/on_traffic.go:19-32, msc_client/session/session.go:104-165 -/
def run (zeroAll : Bool) (gb : Bytes → Option Bytes) (e : ServerTraffic.Env) (t0 : Int) (steps : List Step) : State :=
  steps.foldl (step zeroAll gb e) { srv := { tk := { lastUse := t0 } } }

end Gosms.Link
