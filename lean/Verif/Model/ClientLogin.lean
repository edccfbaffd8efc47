import Verif.Model.Cmpp
import Verif.Model.Smgp
import Verif.Model.Sgip
import Verif.Model.Names

/-!
# The client's login

msc_client/session/session.go:48-60 `NewSession` and 167-261 `login`. One `Read` of the connection fetches the
login response; it returns some bytes, perhaps fewer than asked for, and perhaps an error.
-/

namespace Gosms.ClientLogin

/-- msc_client/session/session.go:36-39: session states. -/
inductive Stat where
  | connect | login | closing
deriving DecidableEq, Repr

/-- Result of `login`: error, or no error and the state the session is in. msc_client/session/session.go:167-261 -/
inductive Outcome where
  | err
  | nil (s : Stat)
deriving DecidableEq, Repr

/-- What one `Read` into a buffer returned: the bytes and whether there was an error. Go's `net.Conn.Read`, as used at
msc_client/session/session.go:167-261. -/
structure Got where
  bytes : Bytes
  err : Bool := false
deriving DecidableEq, Repr

/-- session.go:168-190: the length of the expected response. -/
def respLen (p : Proto) (version : UInt8) : Nat :=
  match p with
  | .sgip => 21
  | .cmpp => if Cmpp.v3 version then 33 else 30
  | .smgp => 33

/-- session.go:168-196: the login request that is written: a bind of type 1 (SGIP), a connect (CMPP) or a login (SMGP) for the
session's account. `seq` are the words of the sequence number (CMPP and SMGP use the first), `clock` is the time read by
`utils.Now`. -/
def request (md5 : Bytes → Bytes) (p : Proto) (ac : AuthConf) (seq : Sgip.Seq3) (clock : Clock) : Option Bytes :=
  match p with
  | .sgip => (Sgip.newBind ac 1 seq).encode
  | .cmpp => (Cmpp.newConnect md5 ac seq.1 clock).encode
  | .smgp => (Smgp.newLogin md5 ac seq.1 clock).encode

/-- session.go:211-258: the decision on a response of the right length. Decoding a response of this length does not
panic; where the model's decoder says it does, the outcome is an error too. -/
def decide' (p : Proto) (version : UInt8) (data : Bytes) : Outcome :=
  let cmd := rd32 ((data.drop 4).take 4)
  let seq := rd32 ((data.drop 8).take 4)
  match p with
  | .sgip =>
    if cmd ≠ Sgip.BIND_RESP then .err
    else match Sgip.bindRspDecode seq (Buf.exact (data.drop 12)) with
      | some r => if r.status ≠ 0 then .err else .nil .login
      | none => .err
  | .cmpp =>
    if cmd ≠ Cmpp.CONNECT_RESP then .err
    else match Cmpp.ConnectResp.decode version seq (Buf.exact (data.drop 12)) with
      | some r => if r.status ≠ 0 then .err else .nil .login
      | none => .err
  | .smgp =>
    if cmd ≠ Smgp.LOGIN_RESP then .err
    else match Smgp.LoginRsp.decode seq (Buf.exact (data.drop 12)) with
      | some r => if r.status ≠ 0 then .err else .nil .login
      | none => .err

/-- session.go:167-261 `login`. `writeErr`: writing the request failed. -/
def login (p : Proto) (version : UInt8) (writeErr : Bool) (got : Got) : Outcome :=
  if writeErr then .err
  else if got.err ∨ got.bytes.length ≠ respLen p version then
    (if got.err then .err else .nil .connect)   -- `return err`, lines 203-205
  else if rd32 (got.bytes.take 4) ≠ UInt32.ofNat got.bytes.length then .err
  else decide' p version got.bytes

/-- session.go:48-60 `NewSession`: the state of the new session, or nil. -/
def newSession (p : Proto) (version : UInt8) (writeErr : Bool) (got : Got) : Option Stat :=
  match login p version writeErr got with
  | .err => none
  | .nil s => some s

/-- session.go:263-274 `HealthCheck` for a session just made (connection, account and channel are set; the activity
time plays no role, since `ActiveTest` never returns an error). -/
def healthy (s : Stat) : Bool := s == .login

end Gosms.ClientLogin
