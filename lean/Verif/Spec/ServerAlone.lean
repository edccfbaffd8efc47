import Verif.Spec.ServerLife

/-!
# Specification: packets without body that arrive alone
-/

namespace Gosms.Spec.ServerLife

/-- If a buffer begins with a whole packet that has no body, it holds nothing else. -/
def BareAlone (buf : Bytes) : Prop := 12 ≤ buf.length → rd32 (buf.take 4) = 12 → buf.length = 12

instance (buf : Bytes) : Decidable (BareAlone buf) := by unfold BareAlone; infer_instance

/-- Whenever bytes arrive and a packet without body is the next to be read, no bytes of later packets are there yet. -/
def ComesAlone (gb : Bytes → Option Bytes) (e : Gosms.ServerTraffic.Env) (t0 : Int) (steps : List Gosms.ServerLife.Step) : Prop :=
  ∀ a bytes d now b, steps = a ++ .data bytes d now :: b → BareAlone ((Gosms.ServerLife.run true gb e t0 a).buffer ++ bytes)

end Gosms.Spec.ServerLife
