import Verif.Model.Traffic
import Verif.Model.ServerTicks

/-!
# A server connection, from the bytes that arrive, with the server's ticks

Model/Traffic.lean and Model/ServerTicks.lean together: msc_server/server/on_traffic.go:19-106 and on_tick.go. As Model/ServerStream.lean, with the frames the server
sends on its own account.
-/

namespace Gosms.ServerLife

/-- The inbound buffer and what the server has for the connection. msc_server/server/on_traffic.go:19-32, session.go:18-33 -/
structure State where
  buffer : Bytes := []
  tk : ServerTicks.State

/-- Bytes arrive (`d`: what the handlers draw if they are given a packet), or something else happens: see `ServerTicks.Step` and `ServerTraffic.Step`.
msc_server/server/on_traffic.go:19-32, on_tick.go:19-47, on_close.go:14-24 -/
inductive Step where
  | data (bytes : Bytes) (d : ServerTraffic.Draw) (now : Int)
  | run (i : Nat) (now : Int)
  | drop (i : Nat) (now : Int)
  | loop (now : Int)
  | close (now : Int)
  | tick (d : ServerTicks.TickDraw)
  | task (i : Nat) (d : ServerTicks.TaskDraw)

/-- One step. `OnTraffic` is msc_server/server/on_traffic.go:19-32: the header is checked, and a whole packet is given to the handlers; on a closed
connection (or if the process has ended) nothing arrives. `zeroAll`: see Model/Traffic.lean. -/
def step (zeroAll : Bool) (gb : Bytes → Option Bytes) (e : ServerTraffic.Env) (s : State) : Step → State
  | .data bytes d now =>
    if s.tk.base.crashed ∨ s.tk.base.isOpen = false then s
    else
      let buf := s.buffer ++ bytes
      match Traffic.decodeAndCheckHeader zeroAll e.proto buf with
      | none => { buffer := buf, tk := { s.tk with base := { s.tk.base with crashed := true } } }
      | some .wait => { s with buffer := buf }
      | some .close => { buffer := buf, tk := ServerTicks.step gb e s.tk (.base .close now) }
      | some (.packet cmd seq body rest) => { buffer := rest, tk := ServerTicks.step gb e s.tk (.base (.packet cmd seq body d) now) }
  | .run i now => { s with tk := ServerTicks.step gb e s.tk (.base (.run i) now) }
  | .drop i now => { s with tk := ServerTicks.step gb e s.tk (.base (.drop i) now) }
  | .loop now => { s with tk := ServerTicks.step gb e s.tk (.base .loop now) }
  | .close now => { s with tk := ServerTicks.step gb e s.tk (.base .close now) }
  | .tick d => { s with tk := ServerTicks.step gb e s.tk (.tick d) }
  | .task i d => { s with tk := ServerTicks.step gb e s.tk (.task i d) }

/-- A history of a connection opened at `t0`. msc_server/server/on_traffic.go:19-32, session.go:48-56 -/
def run (zeroAll : Bool) (gb : Bytes → Option Bytes) (e : ServerTraffic.Env) (t0 : Int) (steps : List Step) : State :=
  steps.foldl (step zeroAll gb e) { tk := { lastUse := t0 } }

end Gosms.ServerLife
