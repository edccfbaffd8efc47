import Verif.Spec.Link
import Verif.Spec.ServerStream

/-!
# Specification: requests and answers on a connection with both its ends
-/

namespace Gosms.Spec.Link
open Gosms.Link (Step State)
open Gosms.Spec.ServerLife (written)
open Gosms.Spec.ServerTraffic (activeCmd deliverCmd)

/-- What the client sends on its own account. -/
def requests (js : List Step) : List Gosms.Traffic.Packet := js.filterMap fun | .send cmd seq body => some ⟨cmd, seq, body⟩ | _ => none

/-- What the client has read, in order. -/
def haveRead (s : State) : List Bytes := (written s.srv).take s.read

/-- A frame as its reader takes it: 4 bytes of length, the command, the sequence number, the rest. -/
def packetOf (f : Bytes) : Gosms.Traffic.Packet := ⟨rd32 ((f.drop 4).take 4), rd32 ((f.drop 8).take 4), f.drop 12⟩

/-- The requests of a server that the client answers and stays: heartbeats and deliveries. SGIP has no heartbeats, and its deliveries the client does not treat. -/
def Answerable (p : Proto) (cmd : UInt32) : Prop := p ≠ .sgip ∧ (activeCmd p = some cmd ∨ cmd = deliverCmd p)

end Gosms.Spec.Link
