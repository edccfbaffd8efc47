import Verif.Spec.ServerTraffic
import Verif.Model.Utils

/-!
# Specification: frames a server sends on its own account
-/

namespace Gosms.Spec.ServerTicks

/-- A heartbeat: an empty packet. SGIP has none. -/
def heartbeat : Proto → UInt32 → Option Bytes
  | .cmpp, seq => some (header12 12 8 seq)
  | .smgp, seq => some (header12 12 4 seq)
  | .sgip, _ => none

/-- A termination: an empty packet. -/
def termination : Proto → UInt32 → UInt32 × UInt32 × UInt32 → Bytes
  | .cmpp, seq, _ => header12 12 2 seq
  | .smgp, seq, _ => header12 12 6 seq
  | .sgip, _, s => header20 20 2 s.1 s.2.1 s.2.2

/-- A configured text: number, `_,_`, text; what follows another `_,_` is not used. -/
def entry (content number text : Bytes) : Prop :=
  ∃ rest, content = number ++ ascii "_,_" ++ text ++ rest ∧ (rest = [] ∨ ascii "_,_" <+: rest) ∧
    (∀ i < number.length, ¬ ascii "_,_" <+: content.drop i) ∧ ∀ i < text.length, ¬ ascii "_,_" <+: (text ++ rest).drop i

open Spec.ServerTraffic in
/-- An answer that counts as a use of the session: an accepting submit response, a report, an accepting login response, or a response
to a heartbeat. -/
def activity (p : Proto) (f : Bytes) : Bool :=
  (command f = be32 (responseOf (submitCmd p)) ∧ acceptance p f = true) ∨ command f = be32 (deliverCmd p) ∨
  (command f = be32 (responseOf (loginCmd p)) ∧ refusal p f = false) ∨
  (activeCmd p).any fun c => command f = be32 (responseOf c)

end Gosms.Spec.ServerTicks
