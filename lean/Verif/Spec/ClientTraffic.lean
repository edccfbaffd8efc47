import Verif.Spec.Wire
import Verif.Model.Names
import Verif.Model.Client

/-!
# Specification: packets a carrier sends to the client

What a complete body is, which packets ask for an answer, and what that answer looks like on the wire. Byte `i` of the
body (the bytes after the first 12) is `body.getD i 0`.
-/

namespace Gosms.Spec.ClientTraffic

/-- The kinds of packets the client knows. -/
inductive Kind where
  | loginResp | active | activeResp | terminate | terminateResp | submitResp | deliver
deriving DecidableEq, Repr

/-- The kind of a command in each protocol, as the client treats it. SGIP has no heartbeat; its deliveries (4) and
reports (5) are not treated. -/
def kind : Proto → UInt32 → Option Kind
  | .cmpp, 0x80000001 => some .loginResp
  | .cmpp, 8 => some .active
  | .cmpp, 0x80000008 => some .activeResp
  | .cmpp, 2 => some .terminate
  | .cmpp, 0x80000002 => some .terminateResp
  | .cmpp, 0x80000004 => some .submitResp
  | .cmpp, 5 => some .deliver
  | .smgp, 0x80000001 => some .loginResp
  | .smgp, 4 => some .active
  | .smgp, 0x80000004 => some .activeResp
  | .smgp, 6 => some .terminate
  | .smgp, 0x80000006 => some .terminateResp
  | .smgp, 0x80000002 => some .submitResp
  | .smgp, 3 => some .deliver
  | .sgip, 0x80000001 => some .loginResp
  | .sgip, 2 => some .terminate
  | .sgip, 0x80000002 => some .terminateResp
  | .sgip, 0x80000003 => some .submitResp
  | _, _ => none

/-- A CMPP delivery: in version 3 the report flag is byte 75, in version 2 byte 63; the content length follows, then the
content (60 bytes are read for a report) and in version 3 a link id of 20 bytes. -/
def CmppDeliverBody (v3 : Bool) (body : Bytes) : Prop :=
  let at1 := if v3 then 75 else 63
  let len := (body.getD (at1 + 1) 0).toNat
  at1 + 2 ≤ body.length ∧ at1 + 2 + len + (if v3 then 20 else 0) ≤ body.length ∧
    (body.getD at1 0 = 1 → at1 + 2 + 60 ≤ body.length)

/-- An SMGP delivery: the report flag is byte 10, the content length byte 68; a report takes 122 bytes. -/
def SmgpDeliverBody (body : Bytes) : Prop :=
  69 ≤ body.length ∧ 69 + (if body.getD 10 0 = 1 then 122 else (body.getD 68 0).toNat) ≤ body.length

/-- The body has every field the protocol prescribes. -/
def BodyComplete (v3 : Bool) (body : Bytes) : Proto → Kind → Prop
  | .cmpp, .loginResp => (if v3 then 4 else 1) + 16 + 1 ≤ body.length
  | .cmpp, .submitResp => 8 + (if v3 then 4 else 1) ≤ body.length
  | .cmpp, .deliver => CmppDeliverBody v3 body
  | .smgp, .loginResp => 4 + 16 + 1 ≤ body.length
  | .smgp, .submitResp => 10 + 4 ≤ body.length
  | .smgp, .deliver => SmgpDeliverBody body
  | .sgip, .loginResp => 8 + 1 ≤ body.length
  | .sgip, .terminate => 8 ≤ body.length
  | .sgip, .terminateResp => 8 ≤ body.length
  | .sgip, .submitResp => 8 + 1 ≤ body.length
  | _, _ => True

/-- The status field of a login response says that the login was accepted. Of the four bytes of CMPP 3 the client reads
the last. -/
def LoginOk (v3 : Bool) (body : Bytes) : Proto → Prop
  | .cmpp => body.getD (if v3 then 3 else 0) 0 = 0
  | .smgp => body.take 4 = [0, 0, 0, 0]
  | .sgip => body.getD 8 0 = 0

/-- The answer that belongs to a request: command with the top bit set, the request's sequence number (for SGIP its other
two words are the first 8 bytes of the body), and a body: CMPP heartbeat one zero byte, CMPP delivery the message id
of the request and result 0, SMGP delivery an id of 10 bytes and status 0. -/
def answerTo (v3 : Bool) (nextId : Bytes) (p : Proto) (k : Kind) (cmd seq : UInt32) (body : Bytes) : Option Bytes :=
  let pkt (b : Bytes) := header12 (UInt32.ofNat (12 + b.length)) (responseOf cmd) seq ++ b
  match p, k with
  | .cmpp, .active => some (pkt [0])
  | .cmpp, .terminate => some (pkt [])
  | .cmpp, .deliver => some (pkt (body.take 8 ++ List.replicate (if v3 then 4 else 1) 0))
  | .smgp, .active => some (pkt [])
  | .smgp, .terminate => some (pkt [])
  | .smgp, .deliver => some (pkt (nextId ++ [0, 0, 0, 0]))
  | .sgip, .terminate => some (pkt (body.take 8))
  | _, _ => none

/-- An SMGP delivery that is no report and whose text the GB18030 decoder rejects. -/
def Undecodable (gbDec : Bytes → Option Bytes) (p : Proto) (k : Kind) (body : Bytes) : Prop :=
  p = .smgp ∧ k = .deliver ∧ body.getD 10 0 ≠ 1 ∧ gbDec ((body.drop 69).take (body.getD 68 0).toNat) = none

instance (gbDec : Bytes → Option Bytes) (p : Proto) (k : Kind) (body : Bytes) : Decidable (Undecodable gbDec p k body) :=
  inferInstanceAs (Decidable (_ ∧ _))

/-- What a packet tells the client about a message it sent: a submit response carries the request's sequence number, the
id the carrier gave the message and its verdict; a delivery marked as report carries that id and the final state. -/
def effect (v3 : Bool) (p : Proto) (k : Kind) (seq : UInt32) (body : Bytes) (now : Int) : Option Client.Step :=
  match p, k with
  | .cmpp, .submitResp =>
    some (.resp (.cmpp seq (rd64 (body.take 8))
      (if v3 then rd32 ((body.drop 8).take 4) else (body.getD 8 0).toUInt32)) now)
  | .smgp, .submitResp => some (.resp (.smgp seq (body.take 10) (rd32 ((body.drop 10).take 4))) now)
  | .sgip, .submitResp =>
    some (.resp (.sgip seq (rd32 (body.take 4)) (rd32 ((body.drop 4).take 4)) (body.getD 8 0)) now)
  | .cmpp, .deliver =>
    if body.getD (if v3 then 75 else 63) 0 = 1 then
      let content := body.drop (if v3 then 77 else 65)
      some (.report (.cmpp (rd64 (content.take 8)) (slot 7 (content.drop 8))) now)
    else none
  | .smgp, .deliver =>
    if body.getD 10 0 = 1 then
      let content := body.drop 69
      some (.report (.smgp ((content.drop 3).take 10) ((content.drop 81).take 7)) now)
    else none
  | _, _ => none

end Gosms.Spec.ClientTraffic
