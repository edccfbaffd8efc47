import Verif.Model.Traffic
import Verif.Model.ServerTraffic

/-!
# A server connection, from the bytes that arrive

Model/Traffic.lean and Model/ServerTraffic.lean together: msc_server/server/on_traffic.go:19-106. The bytes that have arrived and not been
read are in gnet's inbound buffer; each arrival is one call of `OnTraffic`, which gives at most one packet to the handlers.
-/

namespace Gosms.ServerStream

/-- The inbound buffer and what the server has for the connection. msc_server/server/on_traffic.go:19-32 -/
structure State where
  buffer : Bytes := []
  srv : ServerTraffic.State := {}

/-- Bytes arrive (`d`: what the handlers draw if they are given a packet), or something else happens: see `ServerTraffic.Step`.
msc_server/server/on_traffic.go:19-32, on_close.go:14-24 -/
inductive Step where
  | data (bytes : Bytes) (d : ServerTraffic.Draw)
  | run (i : Nat)
  | drop (i : Nat)
  | loop
  | close

/-- One step. `OnTraffic` is msc_server/server/on_traffic.go:19-32: the header is checked, and a whole packet is given to the handlers; on a closed
connection (or if the process has ended) nothing arrives. `zeroAll`: see Model/Traffic.lean. -/
def step (zeroAll : Bool) (e : ServerTraffic.Env) (s : State) : Step → State
  | .data bytes d =>
    if s.srv.crashed ∨ s.srv.isOpen = false then s
    else
      let buf := s.buffer ++ bytes
      match Traffic.decodeAndCheckHeader zeroAll e.proto buf with
      | none => { buffer := buf, srv := { s.srv with crashed := true } }
      | some .wait => { s with buffer := buf }
      | some .close => { buffer := buf, srv := ServerTraffic.step e s.srv .close }
      | some (.packet cmd seq body rest) => { buffer := rest, srv := ServerTraffic.step e s.srv (.packet cmd seq body d) }
  | .run i => { s with srv := ServerTraffic.step e s.srv (.run i) }
  | .drop i => { s with srv := ServerTraffic.step e s.srv (.drop i) }
  | .loop => { s with srv := ServerTraffic.step e s.srv .loop }
  | .close => { s with srv := ServerTraffic.step e s.srv .close }

/-- A history of a connection. msc_server/server/on_traffic.go:19-32 -/
def run (zeroAll : Bool) (e : ServerTraffic.Env) (steps : List Step) : State := steps.foldl (step zeroAll e) {}

end Gosms.ServerStream
