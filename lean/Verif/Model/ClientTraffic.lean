import Verif.Model.Client
import Verif.Model.Names
import Verif.Model.Cmpp

/-!
# What the client does with a received packet

msc_client/session/session.go:156-165 `onTraffic` and on_traffic_cmpp.go:36-127, on_traffic_sgip.go:36-81,
on_traffic_smgp.go:36-126, running in the receiver goroutine of a session that is logged in (so `s.con` and
`s.authConf` are set; for sessions closed meanwhile see Model/ClientConc.lean). The receiver has no `recover`: a panic
here ends the process. Left out: logging (Model/Logging.lean; it does not panic) and `activeTime`.
-/

namespace Gosms.ClientTraffic

/-- What handling a packet leaves behind: bytes written to the connection, whether the session was closed, and the results and
caches. msc_client/session/on_traffic_cmpp.go:36-126 -/
structure Out where
  written : Option Bytes := none
  closed : Bool := false
  st : Client.State

/-- `_, err := s.con.Write(resp.Encode())` and closing on error. `ok`: the write succeeds; a failed write puts nothing on the
wire. `close`: the session is closed in any case. msc_client/session/on_traffic_cmpp.go:54-60 -/
def answer (s : Client.State) (frame : Option Bytes) (ok close : Bool) : Option Out :=
  frame.map fun b => ⟨if ok then some b else none, close || !ok, s⟩

/-- on_traffic_cmpp.go:111-124, 117: the report of a delivery, if it is one. -/
def cmppReport (d : Cmpp.Delivery) (now : Int) (s : Client.State) : Client.State :=
  if d.registeredDelivery = 1 then
    match d.report with
    | some r => Client.onReport s (.cmpp r.msgId r.stat) now
    | none => s
  else s

/-- on_traffic_smgp.go:112-125. -/
def smgpReport (d : Smgp.Delivery) (now : Int) (s : Client.State) : Client.State :=
  if d.isReport = 1 then
    match d.report with
    | some r => Client.onReport s (.smgp r.id r.stat) now
    | none => s
  else s

/-- msc_client/session/on_traffic_cmpp.go:36-127 `onTrafficCmpp`; `ver` is the account's version. `none` is a panic:
a body too short for the decoder, or line 47 `err.Error()` with a nil error (the decoder never returns one). -/
def onTrafficCmpp (ver : UInt8) (s : Client.State) (cmd seq : UInt32) (buff : Bytes) (ok : Bool) (now : Int) :
    Option Out :=
  let f := Buf.exact buff
  if cmd = Cmpp.CONNECT_RESP then
    (Cmpp.ConnectResp.decode ver seq f).bind fun r => if r.status ≠ 0 then none else some { st := s }
  else if cmd = Cmpp.ACTIVE_TEST then
    (Cmpp.activeTestDecode seq f).bind fun a =>
      answer s (Cmpp.activeTestRspEncode (Cmpp.activeTestToResponse a 0)) ok false
  else if cmd = Cmpp.ACTIVE_TEST_RESP then
    (Cmpp.activeTestRspDecode seq f).map fun _ => { st := s }
  else if cmd = Cmpp.TERMINATE then
    (Cmpp.terminateDecode seq f).bind fun t =>
      answer s (Cmpp.terminateRspEncode (Cmpp.terminateToResponse t 0)) ok true
  else if cmd = Cmpp.TERMINATE_RESP then
    (Cmpp.terminateRspDecode seq f).map fun _ => { st := s, closed := true }
  else if cmd = Cmpp.SUBMIT_RESP then
    (Cmpp.Rsp.decode Cmpp.SUBMIT_RESP ver seq f).map fun r =>
      { st := Client.onResp s (.cmpp r.hdr.sequenceId r.msgId r.result) now }
  else if cmd = Cmpp.DELIVER then
    (Cmpp.Delivery.decode ver seq f).bind fun d =>
      (answer s (d.toResponse 0).encode ok false).map fun o => { o with st := cmppReport d now o.st }
  else some { st := s }

/-- msc_client/session/on_traffic_smgp.go:36-126 `onTrafficSmgp`; `nextId` is the value drawn from `BcdSeq` for the
response to a delivery. A text that is no GB18030 closes the session (lines 100-104). -/
def onTrafficSmgp (gbDec : Bytes → Option Bytes) (ver : UInt8) (s : Client.State) (cmd seq : UInt32) (buff : Bytes)
    (nextId : Bytes) (ok : Bool) (now : Int) : Option Out :=
  let f := Buf.exact buff
  if cmd = Smgp.LOGIN_RESP then
    (Smgp.LoginRsp.decode seq f).bind fun r => if r.status ≠ 0 then none else some { st := s }
  else if cmd = Smgp.ACTIVE_TEST then
    (Smgp.activeTestDecode seq f).bind fun a =>
      answer s (Smgp.activeTestRspEncode (Smgp.activeTestToResponse a 0)) ok false
  else if cmd = Smgp.ACTIVE_TEST_RESP then
    (Smgp.activeTestRspDecode seq f).map fun _ => { st := s }
  else if cmd = Smgp.EXIT then
    (Smgp.exitDecode seq f).bind fun t => answer s (Smgp.exitRspEncode (Smgp.exitToResponse t 0)) ok true
  else if cmd = Smgp.EXIT_RESP then
    (Smgp.exitRspDecode seq f).map fun _ => { st := s, closed := true }
  else if cmd = Smgp.SUBMIT_RESP then
    (Smgp.Rsp.decode Smgp.SUBMIT_RESP ver seq f).map fun r =>
      { st := Client.onResp s (.smgp r.hdr.sequenceId r.msgId r.status) now }
  else if cmd = Smgp.DELIVER then
    (Smgp.Delivery.decode gbDec ver seq f).bind fun
      | none => some { st := s, closed := true }
      | some d =>
        (answer s (d.toResponse 0 nextId).encode ok false).map fun o => { o with st := smgpReport d now o.st }
  else some { st := s }

/-- msc_client/session/on_traffic_sgip.go:36-81 `onTrafficSgip`: no case for deliveries and reports. -/
def onTrafficSgip (s : Client.State) (cmd seq : UInt32) (buff : Bytes) (ok : Bool) (now : Int) : Option Out :=
  let f := Buf.exact buff
  if cmd = Sgip.BIND_RESP then
    (Sgip.bindRspDecode seq f).bind fun r => if r.status ≠ 0 then none else some { st := s }
  else if cmd = Sgip.UNBIND then
    (Sgip.unbindDecode Sgip.UNBIND seq f).bind fun u =>
      answer s (Sgip.unbindEncode (Sgip.unbindToResponse u 0)) ok true
  else if cmd = Sgip.UNBIND_RESP then
    (Sgip.unbindDecode Sgip.UNBIND_RESP seq f).map fun _ => { st := s, closed := true }
  else if cmd = Sgip.SUBMIT_RESP then
    (Sgip.Rsp.decode Sgip.SUBMIT_RESP seq f).map fun r =>
      { st := Client.onResp s (.sgip r.hdr.seq0 r.hdr.seq1 r.hdr.seq2 r.status) now }
  else some { st := s }

/-- What the handling of one packet depends on besides the packet: GB18030 decoder, the account's version, the id drawn for a
response, whether writing succeeds, and the time. msc_client/session/on_traffic_cmpp.go:36-126 -/
structure Env where
  gbDec : Bytes → Option Bytes := some
  ver : UInt8 := 0
  nextId : Bytes := zeros 10
  ok : Bool := true
  now : Int := 0

/-- msc_client/session/session.go:156-165 `onTraffic` -/
def onTraffic (p : Proto) (e : Env) (s : Client.State) (cmd seq : UInt32) (buff : Bytes) : Option Out :=
  match p with
  | .cmpp => onTrafficCmpp e.ver s cmd seq buff e.ok e.now
  | .smgp => onTrafficSmgp e.gbDec e.ver s cmd seq buff e.nextId e.ok e.now
  | .sgip => onTrafficSgip s cmd seq buff e.ok e.now

end Gosms.ClientTraffic
