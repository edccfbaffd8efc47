import Verif.Model.Utils

/-!
# The parts of long messages

`ToTPUDHISlices` (utils/utils.go:191-224, Model/Utils.lean) with the clock it takes the reference of the message from.
-/

namespace Gosms.Parts

/-- utils/utils.go:204: the reference of a long message split when the clock shows `nano` (nanoseconds since 1970).
`byte(n & 0xff)` is the remainder by 256, also of a negative number. -/
def groupId (nano : Int) : UInt8 := UInt8.ofNat (nano % 256).toNat

/-- A content that is split: when, into parts of which size (140 or 160 bytes, utils/utils.go:178-184, codec/smgp/submit.go:74), and the
bytes themselves. -/
structure Sent where
  nano : Int
  pkg : Nat
  content : Bytes
deriving DecidableEq, Repr

/-- utils/utils.go:191-224 `ToTPUDHISlices` at that time; no parts where it panics (a size of 6). -/
def parts (m : Sent) : List Bytes := (toTPUDHISlices (groupId m.nano) m.content m.pkg).getD []

end Gosms.Parts
