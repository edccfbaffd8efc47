import Verif.Model.Handlers

/-!
# Specification: which packet bodies are complete

For each kind of packet, when a body contains every field the protocol prescribes, as far as its own counts
and lengths say. Byte `i` of the body is `body.getD i 0`.
-/

namespace Gosms.Spec

/-- A message content a decoder can take apart: not empty, and not a truncated `05 00 03` segment header. -/
def ContentOk (c : Bytes) : Prop :=
  c ≠ [] ∧ c ≠ [5] ∧ c ≠ [5, 0] ∧ ([5, 0, 3] <+: c → 6 ≤ c.length)

/-- CMPP submit. The number of destinations stands at byte 128 (version 3) or 116; a number has 32 or 21 bytes
(in version 2 the width of the whole list is computed in a byte); in version 3 a type byte follows; then length
and content, and in version 3 a 20-byte link id. -/
def CmppSubmitBody (v3 : Bool) (body : Bytes) : Prop :=
  let at1 := if v3 then 128 else 116
  let dests := if v3 then 32 * (body.getD at1 0).toNat else (21 * (body.getD at1 0).toNat) % 256
  let at2 := at1 + 1 + dests + (if v3 then 1 else 0)
  let len := (body.getD at2 0).toNat
  at2 < body.length ∧ at2 + 1 + len + (if v3 then 20 else 0) ≤ body.length ∧
    ContentOk ((body.drop (at2 + 1)).take len)

/-- SMGP submit: destination count at byte 104, 21 bytes each, length and content, 8 reserved bytes. -/
def SmgpSubmitBody (body : Bytes) : Prop :=
  let at2 := 105 + 21 * (body.getD 104 0).toNat
  let len := (body.getD at2 0).toNat
  at2 < body.length ∧ at2 + 1 + len + 8 ≤ body.length ∧ ContentOk ((body.drop (at2 + 1)).take len)

/-- SGIP submit (without the first 12 header bytes): user count at byte 50, 21 bytes each, 68 bytes of fixed
fields, a 4-byte length and the content. -/
def SgipSubmitBody (body : Bytes) : Prop :=
  let at2 := 51 + 21 * (body.getD 50 0).toNat + 68
  let len := ofBE ((body.drop at2).take 4)
  at2 + 4 + len ≤ body.length ∧ ContentOk ((body.drop (at2 + 4)).take len)

/-- The body of a packet of each kind is complete. Heartbeats and terminations of CMPP and SMGP have none. -/
def BodyComplete (v3 : Bool) (body : Bytes) : Proto → Handlers.Kind → Prop
  | .cmpp, .submit => CmppSubmitBody v3 body
  | .smgp, .submit => SmgpSubmitBody body
  | .sgip, .submit => SgipSubmitBody body
  | .cmpp, .login => 6 + 16 + 1 + 4 ≤ body.length
  | .smgp, .login => 8 + 16 + 1 + 4 + 1 ≤ body.length
  | .sgip, .login => 8 + 1 + 16 + 16 ≤ body.length
  | .cmpp, .deliverResp => 8 + 1 ≤ body.length
  | .smgp, .deliverResp => 10 + 4 ≤ body.length
  | .sgip, .terminate => 8 ≤ body.length
  | .sgip, .terminateResp => 8 ≤ body.length
  | _, _ => True

/-- The login command of each protocol. -/
def loginCommand : Proto → UInt32
  | .cmpp => 1 | .sgip => 1 | .smgp => 1

/-- The size of a login body. -/
def loginSize : Proto → Nat
  | .cmpp => 27 | .sgip => 41 | .smgp => 30

end Gosms.Spec
