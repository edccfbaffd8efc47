import Verif.Spec.Traffic

/-!
# Specification: what the server does with a frame that arrives
-/

namespace Gosms.Spec

/-- The server takes the frame: arriving on an open connection with nothing unread, it is given to the handlers as it is and nothing is left over. -/
def Taken (zeroAll : Bool) (p : Proto) (frame : Bytes) : Prop :=
  ∀ (closes : List Traffic.Packet → Traffic.Packet → Bool) (c : Traffic.Conn), c.isOpen = true → c.buffer = [] →
    ∃ q, raw q = frame ∧ Traffic.onTraffic zeroAll p closes c frame = some ⟨[], c.handed ++ [q], !(closes c.handed q)⟩

/-- The server cuts the sender off: the connection is closed and no handler sees anything of the frame. -/
def CutOff (zeroAll : Bool) (p : Proto) (frame : Bytes) : Prop :=
  ∀ (closes : List Traffic.Packet → Traffic.Packet → Bool) (c : Traffic.Conn), c.isOpen = true → c.buffer = [] →
    Traffic.onTraffic zeroAll p closes c frame = some ⟨frame, c.handed, false⟩

end Gosms.Spec
