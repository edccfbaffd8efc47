import Verif.Model.Buffers

/-! # Specification for C118: what arrived, and what was handed out for writing -/

namespace Gosms.Buffers.Spec
open Gosms.Traffic

/-- The packet that is complete with an arrival, if one is: command, sequence number and body, by the bytes of the connection
when they arrived. -/
def arrived (zeroAll : Bool) (p : Proto) : Op → Option (UInt32 × UInt32 × Bytes)
  | .traffic mem off n =>
    match decodeAndCheckHeader zeroAll p ((mem.drop off).take n) with
    | some (.packet cmd seq body _) => some (cmd, seq, body)
    | _ => none
  | _ => none

/-- The packets of a history, in the order of their arrival. -/
def packets (zeroAll : Bool) (p : Proto) (ops : List Op) : List (UInt32 × UInt32 × Bytes) := ops.filterMap (arrived zeroAll p)

/-- The bytes handed to `AsyncWrite` in a history. -/
def written (ops : List Op) : List Bytes := ops.filterMap fun
  | .write f => some f
  | _ => none

end Gosms.Buffers.Spec
