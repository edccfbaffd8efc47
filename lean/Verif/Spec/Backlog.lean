import Verif.Spec.Traffic

/-!
# Specification: packets that have arrived
-/

namespace Gosms.Spec

/-- How many of the packets `qs`, sent one after the other, are wholly among the first `n` bytes. -/
def wholeIn : List Traffic.Packet → Nat → Nat
  | [], _ => 0
  | q :: qs, n => if (raw q).length ≤ n then wholeIn qs (n - (raw q).length) + 1 else 0

/-- How many of them have arrived with the first `i` segments. -/
def arrived (qs : List Traffic.Packet) (segs : List Bytes) (i : Nat) : Nat := wholeIn qs (segs.take i).flatten.length

/-- The packets can be sent to a server of the protocol: known commands, up to 5120 bytes. `zeroAll` (Model/Traffic.lean): how the network library
reads a length of 0; if that means everything, there is no packet without a body. -/
def Sendable (zeroAll : Bool) (p : Proto) (qs : List Traffic.Packet) : Prop :=
  ∀ q ∈ qs, Known p q.cmd ∧ 12 + q.body.length ≤ 5120 ∧ (zeroAll = false ∨ q.body ≠ [])

end Gosms.Spec
