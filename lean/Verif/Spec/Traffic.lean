import Verif.Spec.Wire
import Verif.Spec.Names
import Verif.Model.Traffic

/-!
# Specification: a stream of packets
-/

namespace Gosms.Spec

/-- The length a packet declares in its first four bytes. -/
def declared (b : Bytes) : Nat := ofBE (b.take 4)

/-- The command in the next four. -/
def command (b : Bytes) : UInt32 := rd32 ((b.drop 4).take 4)

/-- A whole packet: as long as it declares, from 12 to 5120 bytes. -/
def IsPacket (q : Bytes) : Prop := 12 ≤ q.length ∧ q.length ≤ 5120 ∧ declared q = q.length

instance (q : Bytes) : Decidable (IsPacket q) := inferInstanceAs (Decidable (_ ∧ _))

/-- The stream is the packets `ps` one after the other, followed by `rest`. -/
def Cut (stream : Bytes) (ps : List Bytes) (rest : Bytes) : Prop :=
  (∀ q ∈ ps, IsPacket q) ∧ stream = ps.flatten ++ rest

/-- The bytes of a packet given to the handlers. -/
def raw (q : Traffic.Packet) : Bytes :=
  header12 (UInt32.ofNat (12 + q.body.length)) q.cmd q.seq ++ q.body

/-- The command is one of the protocol's. -/
def Known (p : Proto) (cmd : UInt32) : Prop := cmd ∈ (commands p).map Prod.fst

instance (p : Proto) (cmd : UInt32) : Decidable (Known p cmd) := by unfold Known; infer_instance

end Gosms.Spec
