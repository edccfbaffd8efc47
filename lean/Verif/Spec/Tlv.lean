import Verif.Go.Bytes

/-!
# What a TLV area is, independently of the code
-/

namespace Gosms.Spec

/-- Wire form of one TLV: type (2 bytes), length (2 bytes), value; big-endian. -/
def tlvWire (tv : UInt16 × Bytes) : Bytes := be16 tv.1 ++ be16 (UInt16.ofNat tv.2.length) ++ tv.2

/-- Wire form of a list of TLVs: one after the other. -/
def tlvsWire (l : List (UInt16 × Bytes)) : Bytes := l.flatMap tlvWire

/-- `r` is the beginning of a TLV that is cut off before its end. -/
def CutTlv (r : Bytes) : Prop :=
  ∃ (tv : UInt16 × Bytes) (n : Nat), tv.2.length < 65536 ∧ 0 < n ∧ n < (tlvWire tv).length ∧
    r = (tlvWire tv).take n

end Gosms.Spec
