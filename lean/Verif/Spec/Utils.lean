import Verif.Go.Bytes

/-!
# Specification for the utility functions: what an identifier string, a text and a concatenated
short message mean, independently of the code.
-/

namespace Gosms.Spec

/-- Value of a lower-case hexadecimal digit. -/
def hexDigitVal (b : UInt8) : Option Nat :=
  if 0x30 ≤ b.toNat ∧ b.toNat ≤ 0x39 then some (b.toNat - 0x30)
  else if 0x61 ≤ b.toNat ∧ b.toNat ≤ 0x66 then some (b.toNat - 0x61 + 10)
  else none

/-- Value of a lower-case hexadecimal numeral, most significant digit first. -/
def hexVal (s : Bytes) : Option Nat :=
  s.foldl (fun acc b => acc.bind fun a => (hexDigitVal b).map fun d => a * 16 + d) (some 0)

/-- A concatenated-message slice as the handset sees it: `05 00 03 ref total number` + body
(3GPP TS 23.040, 9.2.3.24.1). -/
structure UdhSlice where
  ref : UInt8
  total : UInt8
  number : UInt8
  body : Bytes
deriving DecidableEq, Repr

/-- Parse a concatenated-message slice. -/
def parseUdh : Bytes → Option UdhSlice
  | 0x05 :: 0x00 :: 0x03 :: ref :: total :: number :: body => some ⟨ref, total, number, body⟩
  | _ => none

/-- The 6-byte header of a concatenated-message slice. -/
def udhHeader (ref total number : UInt8) : Bytes := [0x05, 0x00, 0x03, ref, total, number]

end Gosms.Spec

namespace Gosms.Spec

/-- What a handset shows after receiving all slices in order: the bodies, concatenated. -/
def reassemble (slices : List Bytes) : Option Bytes :=
  (slices.mapM parseUdh).map fun ss => (ss.map (·.body)).flatten

end Gosms.Spec
