import Verif.Spec.Utils

/-!
# What a handset puts together

The parts that have arrived, in any order, some of them perhaps several times, of any number of messages of one sender. A message is told
by its reference and its number of parts (3GPP TS 23.040, 9.2.3.24.1); it is complete when there is a part for each number from 1 on.
-/

namespace Gosms.Spec

/-- The text of the message with this reference and total, if its parts are all there. -/
def assembled (arrived : List Bytes) (ref total : UInt8) : Option Bytes :=
  ((List.range total.toNat).mapM fun k =>
    (arrived.filterMap parseUdh).find? fun u => u.ref = ref ∧ u.total = total ∧ u.number.toNat = k + 1).map
    fun us => (us.map (·.body)).flatten

end Gosms.Spec
