import Verif.Spec.ServerStream
import Verif.Spec.ClientStream
import Verif.Spec.Client

/-!
# Specification: a text on its way to the server and its answers on their way back
-/

namespace Gosms.Spec.TextOverNetwork
open Gosms.ClientReceive (Packet)

/-- A frame as the packet it is: command, sequence number (its first word), and the rest. -/
def packetOf (f : Bytes) : Packet := ⟨rd32 ((f.drop 4).take 4), rd32 ((f.drop 8).take 4), f.drop 12⟩

/-- The result found under number `q`, of a message sent at `t`, is left alone by a step: nothing is sent under the number, it is not thrown away for its age, and
no answer is recorded under it. -/
def LeavesAlone (q : UInt64) (t : Int) (x : Client.Step) : Prop :=
  ¬ Client.Spec.sends q x ∧ ¬ Client.Spec.dropsSeq t x ∧ ∀ s0 s1 s2 status now, x = .resp (.sgip s0 s1 s2 status) now →
    Client.sequence2Uint64 s1 s2 ≠ q

end Gosms.Spec.TextOverNetwork
