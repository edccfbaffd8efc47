import Verif.Spec.Backlog
import Verif.Spec.ServerTraffic
import Verif.Model.ServerStream

/-!
# Specification: histories of a connection in bytes
-/

namespace Gosms.Spec.ServerStream

/-- The pieces in which the bytes arrive. -/
def segments (steps : List Gosms.ServerStream.Step) : List Bytes :=
  steps.filterMap fun | .data b _ => some b | _ => none

/-- The packets in a history of packets. -/
def packets (steps : List Gosms.ServerTraffic.Step) : List Gosms.Traffic.Packet :=
  steps.filterMap fun | .packet cmd seq body _ => some ⟨cmd, seq, body⟩ | _ => none

/-- No run of segments brings more packets than it has segments (Props/Backlog.lean): then the server is not behind. -/
def KeptUp (qs : List Gosms.Traffic.Packet) (segs : List Bytes) : Prop :=
  ∀ i, i ≤ segs.length → arrived qs segs segs.length - arrived qs segs i ≤ segs.length - i

/-- The request has this command and this sequence number. -/
def Numbered (p : Proto) (cmd : UInt32) (n : Bytes) (q : Gosms.Traffic.Packet) : Prop :=
  q.cmd = cmd ∧ Gosms.Spec.ServerTraffic.packetSeq p q.seq q.body = n

instance (p : Proto) (cmd : UInt32) (n : Bytes) (q : Gosms.Traffic.Packet) : Decidable (Numbered p cmd n q) :=
  inferInstanceAs (Decidable (_ ∧ _))

end Gosms.Spec.ServerStream
