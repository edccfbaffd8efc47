import Verif.Model.Cmpp
import Verif.Model.Sgip
import Verif.Model.Smgp
import Verif.Model.Traffic

/-!
# The handlers' work in the event loop

Model of the handler chains and of the part of each handler that runs in gnet's event loop: session check,
body decoding, then a task for a goroutine pool. A panic there ends the server (`crash`): gnet does not
recover in the event loop. Left out: logging (Model/Logging.lean; it does not panic), and full goroutine pools (Model/Pools).
-/

namespace Gosms.Handlers

/-- msc_server/server/session.go:40-46 `stat` -/
inductive Stat where
  | connect | login | closing
deriving DecidableEq, Repr

/-- What a handler is for. msc_server/server/chain_cmpp_handler.go:3-13, chain_smgp_handler.go:3-13, chain_sgip_handler.go:3-10
-/
inductive Kind where
  | submit | active | activeResp | deliverResp | login | terminate | terminateResp
deriving DecidableEq, Repr

/-- The chains, in order: msc_server/server/chain_cmpp_handler.go:3-13, chain_sgip_handler.go:3-10,
chain_smgp_handler.go:3-13; each handler first compares the command (e.g. cmpp_submit.go:18-21). -/
def chain : Proto → List (UInt32 × Kind)
  | .cmpp => [(Cmpp.SUBMIT, .submit), (Cmpp.ACTIVE_TEST, .active), (Cmpp.ACTIVE_TEST_RESP, .activeResp),
      (Cmpp.DELIVER_RESP, .deliverResp), (Cmpp.CONNECT, .login), (Cmpp.TERMINATE, .terminate),
      (Cmpp.TERMINATE_RESP, .terminateResp)]
  | .sgip => [(Sgip.SUBMIT, .submit), (Sgip.BIND, .login), (Sgip.UNBIND, .terminate),
      (Sgip.UNBIND_RESP, .terminateResp)]
  | .smgp => [(Smgp.SUBMIT, .submit), (Smgp.ACTIVE_TEST, .active), (Smgp.ACTIVE_TEST_RESP, .activeResp),
      (Smgp.DELIVER_RESP, .deliverResp), (Smgp.LOGIN, .login), (Smgp.EXIT, .terminate),
      (Smgp.EXIT_RESP, .terminateResp)]

/-- Whether the body decodes without a panic: the `Decode` call of each handler (cmpp_submit.go:28-29,
cmpp_active.go:23-24, cmpp_active_resp.go:23-24, cmpp_delivery_resp.go:23-24, cmpp_connect.go:18-20,
cmpp_terminate.go:22-23, cmpp_terminate_resp.go:22-23, and their SMGP and SGIP counterparts). The body has
no spare capacity (on_traffic.go:101). No decoder returns an error. Delivery responses are decoded with
version 0. SGIP has no heartbeat and no delivery handlers; those cases do not occur. -/
def decodes (gbDec : Bytes → Option Bytes) (ver : UInt8) (seq : UInt32) (body : Bytes) : Proto → Kind → Bool
  | .cmpp, .submit => (Cmpp.Submit.decode ver seq (Buf.exact body)).isSome
  | .cmpp, .active => (Cmpp.activeTestDecode seq (Buf.exact body)).isSome
  | .cmpp, .activeResp => (Cmpp.activeTestRspDecode seq (Buf.exact body)).isSome
  | .cmpp, .deliverResp => (Cmpp.Rsp.decode Cmpp.DELIVER_RESP 0 seq (Buf.exact body)).isSome
  | .cmpp, .login => (Cmpp.Connect.decode seq (Buf.exact body)).isSome
  | .cmpp, .terminate => (Cmpp.terminateDecode seq (Buf.exact body)).isSome
  | .cmpp, .terminateResp => (Cmpp.terminateRspDecode seq (Buf.exact body)).isSome
  | .smgp, .submit => (Smgp.Submit.decode gbDec ver seq (Buf.exact body)).isSome
  | .smgp, .active => (Smgp.activeTestDecode seq (Buf.exact body)).isSome
  | .smgp, .activeResp => (Smgp.activeTestRspDecode seq (Buf.exact body)).isSome
  | .smgp, .deliverResp => (Smgp.Rsp.decode Smgp.DELIVER_RESP 0 seq (Buf.exact body)).isSome
  | .smgp, .login => (Smgp.Login.decode seq (Buf.exact body)).isSome
  | .smgp, .terminate => (Smgp.exitDecode seq (Buf.exact body)).isSome
  | .smgp, .terminateResp => (Smgp.exitRspDecode seq (Buf.exact body)).isSome
  | .sgip, .submit => (Sgip.Submit.decode seq (Buf.exact body)).isSome
  | .sgip, .login => (Sgip.Bind.decode seq (Buf.exact body)).isSome
  | .sgip, .terminate => (Sgip.unbindDecode Sgip.UNBIND seq (Buf.exact body)).isSome
  | .sgip, .terminateResp => (Sgip.unbindDecode Sgip.UNBIND_RESP seq (Buf.exact body)).isSome
  | .sgip, .active => true
  | .sgip, .activeResp => true
  | .sgip, .deliverResp => true

/-- What the event loop does with a packet. msc_server/server/on_traffic.go:39-53 -/
inductive Outcome where
  | crash            -- panic in the event loop
  | close            -- the connection is closed
  | ignored          -- no handler for the command
  | task (k : Kind)  -- a handler task is started
deriving DecidableEq, Repr

/-- One handler: e.g. msc_server/server/cmpp_submit.go:17-50. All handlers but the login ones check the
session first (`sessionCheck`, on_traffic.go:140-147). -/
def handle (gbDec : Bytes → Option Bytes) (p : Proto) (stat : Stat) (ver : UInt8) (k : Kind) (seq : UInt32)
    (body : Bytes) : Outcome :=
  if k ≠ .login ∧ stat ≠ .login then .close
  else if decodes gbDec ver seq body p k then .task k
  else .crash

/-- msc_server/server/on_traffic.go:42-53 `ExecuteChain` -/
def executeChain (gbDec : Bytes → Option Bytes) (p : Proto) (stat : Stat) (ver : UInt8) (cmd seq : UInt32)
    (body : Bytes) : List (UInt32 × Kind) → Outcome
  | [] => .ignored
  | (c, k) :: rest =>
    if c ≠ cmd then executeChain gbDec p stat ver cmd seq body rest
    else handle gbDec p stat ver k seq body

/-- msc_server/server/on_traffic.go:19-32 `OnTraffic` for a complete packet. -/
def serve (gbDec : Bytes → Option Bytes) (p : Proto) (stat : Stat) (ver : UInt8) (cmd seq : UInt32)
    (body : Bytes) : Outcome := executeChain gbDec p stat ver cmd seq body (chain p)

end Gosms.Handlers
