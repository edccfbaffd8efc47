import Verif.Spec.Wire
import Verif.Model.Names
import Verif.Model.Codec

/-!
# Specification: what the server answers

The frames a client may expect for each packet it sends. `seq` is the packet's sequence number (for SGIP the first of
three words; the other two are the first 8 bytes of the body).
-/

namespace Gosms.Spec.ServerTraffic

/-- A response packet: the request's command with the top bit set, its sequence number, a body. -/
def response (cmd seq : UInt32) (b : Bytes) : Bytes :=
  header12 (UInt32.ofNat (12 + b.length)) (responseOf cmd) seq ++ b

/-- The commands. -/
def submitCmd : Proto → UInt32 | .cmpp => 4 | .smgp => 2 | .sgip => 3
def loginCmd : Proto → UInt32 | .cmpp => 1 | .smgp => 1 | .sgip => 1
def activeCmd : Proto → Option UInt32 | .cmpp => some 8 | .smgp => some 4 | .sgip => none
def terminateCmd : Proto → UInt32 | .cmpp => 2 | .smgp => 6 | .sgip => 2

/-- What happens to a submit: over the rate limit, refused, or accepted. -/
inductive Verdict where
  | limited | refused | accepted
deriving DecidableEq, Repr

/-- The result code a verdict is reported with. -/
def code : Proto → Verdict → UInt32
  | _, .accepted => 0
  | .cmpp, .limited => 8
  | .cmpp, .refused => 8
  | .smgp, .limited => 1
  | .smgp, .refused => 75
  | .sgip, .limited => 33
  | .sgip, .refused => 33

/-- A submit response. CMPP: message id (8 bytes; 0 unless accepted) and result (4 bytes in version 3, else 1). SMGP: message id (10 bytes)
and status. SGIP: the other two words of the sequence number, result, 8 reserved bytes. -/
def submitResponse (v3 : Bool) (p : Proto) (seq : UInt32) (body : Bytes) (v : Verdict) (id : UInt64) (bcd : Bytes) :
    Bytes :=
  response (submitCmd p) seq
    (match p with
    | .cmpp => be64 (if v = .accepted then id else 0) ++
        (if v3 then be32 (code p v) else [(code p v).toUInt8])
    | .smgp => bcd.take 10 ++ List.replicate (10 - bcd.length) 0 ++ be32 (code p v)
    | .sgip => body.take 8 ++ [(code p v).toUInt8] ++ List.replicate 8 0)

/-- The message id an accepted submit gets, as bytes. -/
def messageId : Proto → UInt64 → Bytes → Bytes
  | .cmpp, id, _ => be64 id
  | .smgp, _, bcd => bcd
  | .sgip, _, _ => []

/-- The message id inside a delivery that is a status report (CMPP: the first 8 bytes of the content; SMGP: the 10 bytes
after `id:`). -/
def reportId (v3 : Bool) : Proto → Bytes → Bytes
  | .cmpp, f => (f.drop (if v3 then 89 else 77)).take 8
  | .smgp, f => (f.drop 84).take 10
  | .sgip, _ => []

/-- The delivery command. -/
def deliverCmd : Proto → UInt32 | .cmpp => 5 | .smgp => 3 | .sgip => 4

/-- The response to a heartbeat (CMPP: one reserved byte). -/
def activeResponse : Proto → UInt32 → Option Bytes
  | .cmpp, seq => some (response 8 seq [0])
  | .smgp, seq => some (response 4 seq [])
  | .sgip, _ => none

/-- The response to a termination. -/
def terminateResponse (p : Proto) (seq : UInt32) (body : Bytes) : Bytes :=
  response (terminateCmd p) seq (if p = .sgip then body.take 8 else [])

/-- What becomes of a login. -/
inductive Login where
  | unknown   -- no such account
  | version   -- another major version
  | secret    -- wrong digest or password
  | full      -- the account has all its sessions
  | ok (a : AuthConf)
deriving DecidableEq, Repr

/-- The status it is answered with. -/
def Login.code : Proto → Login → UInt32
  | _, .ok _ => 0
  | .cmpp, .unknown => 2 | .cmpp, .secret => 3 | .cmpp, .version => 4 | .cmpp, .full => 5
  | .smgp, .unknown => 69 | .smgp, .secret => 21 | .smgp, .version => 22 | .smgp, .full => 2
  | .sgip, .unknown => 1 | .sgip, .secret => 1 | .sgip, .version => 1 | .sgip, .full => 3

/-- Fields of a login body. CMPP: account 6, digest 16, version 1, time 4. SMGP: account 8, digest 16, mode 1, time 4,
version 1. SGIP: two words of the sequence number, type 1, name 16, password 16. -/
def loginName : Proto → Bytes → Bytes
  | .cmpp, b => slot 6 (b.take 6)
  | .smgp, b => b.take 8
  | .sgip, b => slot 16 ((b.drop 9).take 16)
def loginVersion : Proto → Bytes → UInt8
  | .cmpp, b => b.getD 22 0
  | .smgp, b => b.getD 29 0
  | .sgip, _ => 0
def loginTime : Proto → Bytes → UInt32
  | .cmpp, b => rd32 ((b.drop 23).take 4)
  | .smgp, b => rd32 ((b.drop 25).take 4)
  | .sgip, _ => 0

/-- The digest (SGIP: name and password) is right for the account. -/
def Credentials (md5 : Bytes → Bytes) (a : AuthConf) : Proto → Bytes → Prop
  | .cmpp, b => (b.drop 6).take 16 =
      md5 (a.clientId ++ List.replicate 9 0 ++ a.sharedSecret ++ decimal 10 (loginTime .cmpp b).toNat)
  | .smgp, b => (b.drop 8).take 16 =
      md5 (a.clientId ++ List.replicate 7 0 ++ a.sharedSecret ++ decimal 10 (loginTime .smgp b).toNat)
  | .sgip, b => a.loginName = loginName .sgip b ∧ a.sharedSecret = slot 16 ((b.drop 25).take 16)

instance (md5 : Bytes → Bytes) (a : AuthConf) (p : Proto) (b : Bytes) : Decidable (Credentials md5 a p b) := by
  cases p <;> (unfold Credentials; infer_instance)

/-- The decision about a login, given the accounts and how many sessions the account has. -/
def loginVerdict (md5 : Bytes → Bytes) (p : Proto) (body : Bytes) (find : Bytes → Option AuthConf) (sessions : Int) : Login :=
  match find (loginName p body) with
  | none => .unknown
  | some a =>
    if p ≠ .sgip ∧ major (loginVersion p body) ≠ major a.version then .version
    else if ¬ Credentials md5 a p body then .secret
    else if a.maxConns ≤ sessions then .full
    else .ok a

/-- The server's digest: zero unless accepted. -/
def Login.digest (md5 : Bytes → Bytes) (status name : Bytes) : Login → Bytes
  | .ok a => md5 (status ++ name ++ a.sharedSecret)
  | _ => List.replicate 16 0

/-- The login response: status, for CMPP and SMGP the server's digest and the client's version. -/
def loginResponse (md5 : Bytes → Bytes) (p : Proto) (seq : UInt32) (body : Bytes) (l : Login) : Bytes :=
  response (loginCmd p) seq
    (match p with
    | .cmpp => (if major (loginVersion p body) = 3 then be32 (l.code p) else [(l.code p).toUInt8]) ++
        l.digest md5 (if major (loginVersion p body) = 3 then [0, 0, 0, 0] else [0]) (loginName p body) ++ [loginVersion p body]
    | .smgp => be32 (l.code p) ++ l.digest md5 [0] (loginName p body) ++ [loginVersion p body]
    | .sgip => body.take 8 ++ [(l.code p).toUInt8])

/-- The source number and the level (priority) in a submit body. -/
def sourceNumber (v3 : Bool) : Proto → Bytes → Bytes
  | .cmpp, b => slot 21 ((b.drop (if v3 then 107 else 95)).take 21)
  | .smgp, b => slot 21 ((b.drop 62).take 21)
  | .sgip, b => slot 21 ((b.drop 8).take 21)
def priority : Proto → Bytes → UInt8
  | .cmpp, b => b.getD 11 0
  | .smgp, b => b.getD 2 0
  | .sgip, b => b.getD (81 + 21 * (b.getD 50 0).toNat) 0

/-- The sender keeps to its account: its source number begins with the account's number, the level is in range. -/
def KeepsRules (v3 : Bool) (p : Proto) (body number : Bytes) : Prop :=
  number <+: sourceNumber v3 p body ∧ priority p body < (if p = .smgp then 4 else 10)

instance (v3 : Bool) (p : Proto) (body number : Bytes) : Decidable (KeepsRules v3 p body number) := by
  unfold KeepsRules; infer_instance

/-- A login response says the login was refused. CMPP: status after the header, 4 bytes in the 33 byte response of
version 3, else 1. SMGP: 4 bytes after the header. SGIP: the byte after the sequence number. -/
def refusal : Proto → Bytes → Bool
  | .cmpp, f => if f.length = 33 then (f.drop 12).take 4 ≠ [0, 0, 0, 0] else (f.drop 12).take 1 ≠ [0]
  | .smgp, f => (f.drop 12).take 4 ≠ [0, 0, 0, 0]
  | .sgip, f => (f.drop 20).take 1 ≠ [0]

/-- A submit response says the submit was accepted: the result is zero. CMPP: after the message id (8 bytes). SMGP: after the
message id (10 bytes). SGIP: after the sequence number. -/
def acceptance : Proto → Bytes → Bool
  | .cmpp, f => (f.drop 20).all (· = 0)
  | .smgp, f => f.drop 22 = [0, 0, 0, 0]
  | .sgip, f => (f.drop 20).take 1 = [0]

/-- The sequence number a packet carries, as bytes: for SGIP the first 8 bytes of the body belong to it. -/
def packetSeq (p : Proto) (seq : UInt32) (body : Bytes) : Bytes := be32 seq ++ if p = .sgip then body.take 8 else []

/-- The sequence number a frame carries: 4 bytes, for SGIP 12. -/
def seqOf (p : Proto) (frame : Bytes) : Bytes := (frame.drop 8).take (if p = .sgip then 12 else 4)

/-- The command a frame carries. -/
def command (f : Bytes) : Bytes := (f.drop 4).take 4

end Gosms.Spec.ServerTraffic
