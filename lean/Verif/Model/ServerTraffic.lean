import Verif.Model.Sessions
import Verif.Model.Auth
import Verif.Model.Random

/-!
# What the server sends on one connection

Model of msc_server/server/on_traffic.go:19-53 and 107-160 with every handler (cmpp_*.go, smgp_*.go, sgip_*.go): from
the packets of one connection to the frames written on it. Three kinds of activity interleave in any order: the event loop (packets,
write callbacks, closing), the goroutines of handler tasks, and the peer. A task runs its writes in order;
`AsyncWrite` puts a frame at the end of the event loop's queue, from which the loop writes it and then runs the
callback. Left out: logging, sleeping (a task may pause anywhere; that mockRandPrecessTime can panic is modelled), `lastUseTime`
and `nAt` (Model/Heartbeat), the bounds of the goroutine pools (Model/Pools: a session's full pool makes the event loop wait; a server's full pool closes the connection on a login, here the step `close`), server ticks. A
frame is written whole; a failing write closes the connection.
-/

namespace Gosms.ServerTraffic
open Handlers

/-- What the callback of `AsyncWrite` does once the frame is written. msc_server/server/on_traffic.go:129-133,
cmpp_connect.go:61-73, cmpp_terminate.go:56-62 -/
inductive After where
  | none
  | mt                     -- CounterAddMt, on_traffic.go:130-132
  | rpt                    -- CounterAddRpt, cmpp_submit.go:121, smgp_submit.go:123
  | close                  -- c.Close(), cmpp_terminate.go:61, smgp_exit.go:61, sgip_unbind.go:61
  | login (ac : AuthConf)  -- completeLogin, cmpp_connect.go:62-65
  | refuse                 -- stat closing and c.Close(), cmpp_connect.go:66-71
deriving DecidableEq, Repr

/-- One effect of a handler task. msc_server/server/cmpp_submit.go:54-127 -/
inductive Act where
  | send (frame : Bytes) (after : After)
  | shut                   -- sc.conn.Close(), cmpp_terminate_resp.go:53-54
deriving DecidableEq, Repr

/-- What handling one packet reads or draws from outside: the rate limiter's answer, the account (`auth.Cache.FindByCid`),
`Server.Mock.MinSubmitRespMs` and `MaxSubmitRespMs` with a random number, the two dice of `Server.Mock.SuccessRate`, account
lookup and session count for logins, the account for an SMGP report, ids, sequence numbers and times.
msc_server/server/on_traffic.go:109-121, 154-159, cmpp_submit.go:54-127, cmpp_connect.go:40-79 -/
structure Draw where
  allow : Bool := true
  account : Option Auth.Client := none
  minMs : Int := 1
  maxMs : Int := 3
  random : Nat := 0
  fail : Bool := false
  noReport : Bool := false
  find : Bytes → Option AuthConf := fun _ => none
  sessions : Int := 0
  conf : Option AuthConf := none
  id : UInt64 := 0
  bcd : Bytes := []
  rptSeq : UInt32 := 0
  rptId : UInt64 := 0
  rptBcd : Bytes := []
  smsc : UInt32 := 0
  g : UInt8 := 0
  subTime : Bytes := []
  doneTime : Bytes := []
  clock : Clock := ⟨0, 1, 1, 0, 0, 0⟩
  subClock : Clock := ⟨0, 1, 1, 0, 0, 0⟩
  doneClock : Clock := ⟨0, 1, 1, 0, 0, 0⟩
  unix : Nat := 0

/-- `AsyncWrite(pdu.Encode(), callback)`; a panic of the encoder ends the task (recovered by the pool).
msc_server/server/on_traffic.go:126-133 -/
def write (frame : Option Bytes) (after : After) (rest : List Act) : List Act :=
  match frame with
  | some f => .send f after :: rest
  | none => []

/-- msc_server/server/on_traffic.go:124-137 `sendSubmitResponse`, with what follows it in the task. -/
def respond (frame : Option Bytes) (result : UInt32) (rest : List Act) : List Act :=
  write frame (if result = 0 then .mt else .none) rest

/-- msc_server/server/cmpp_submit.go:92-102 `cmppSubmitPacketCheck`: `none` is the nil account (a panic). The outcome of
the checks is not used. -/
def cmppCheck (cli : Option Auth.Client) (_mt : Cmpp.Submit) : Option UInt32 := cli.map fun _ => 0
/-- msc_server/server/smgp_submit.go:93-103 `smgpSubmitPacketCheck` -/
def smgpCheck (cli : Option Auth.Client) (_mt : Smgp.Submit) : Option UInt32 := cli.map fun _ => 0
/-- msc_server/server/sgip_submit.go:88-98 `sgipSubmitPacketCheck` -/
def sgipCheck (cli : Option Auth.Client) (_mt : Sgip.Submit) : Option UInt32 := cli.map fun _ => 0

/-- msc_server/server/cmpp_submit.go:104-126 `mockSendCmppReport` -/
def cmppReport (d : Draw) (mt : Cmpp.Submit) (msgId : UInt64) : List Act :=
  if d.noReport then []
  else write ((mt.toDeliveryReport msgId d.rptSeq d.rptId d.smsc d.subTime d.doneTime).encode d.g) .rpt []

/-- msc_server/server/smgp_submit.go:105-128 `mockSendSmgpReport`; a nil account is a panic (deliver.go:73). -/
def smgpReport (d : Draw) (mt : Smgp.Submit) (msgId : Bytes) : List Act :=
  if d.noReport then []
  else match d.conf with
    | none => []
    | some ac => write ((Smgp.newDeliveryReport ac mt d.rptSeq msgId d.rptBcd d.clock d.subClock d.doneClock d.unix).bind
        (·.encode)) .rpt []

/-- msc_server/server/cmpp_submit.go:54-88 `handleCmppSubmit`, and on_traffic.go:109-121 `submitFlowControl` with code 8
(cmpp_submit.go:35) -/
def cmppSubmit (d : Draw) (mt : Cmpp.Submit) : List Act :=
  if d.allow = false then respond (mt.toResponse 8 d.id).encode 8 []
  else match cmppCheck d.account mt, Random.processTime d.random d.minMs d.maxMs with
    | none, _ => []
    | some _, none => []
    | some r, some _ =>
      let result := if d.fail then 8 else r
      let resp := mt.toResponse result d.id
      respond resp.encode result (if result = 0 then cmppReport d mt resp.msgId else [])

/-- msc_server/server/smgp_submit.go:55-89 `handleSmgpSubmit`; flow control code 1 (line 36), simulated failure 75 -/
def smgpSubmit (d : Draw) (mt : Smgp.Submit) : List Act :=
  if d.allow = false then respond (mt.toResponse 1 d.bcd).encode 1 []
  else match smgpCheck d.account mt, Random.processTime d.random d.minMs d.maxMs with
    | none, _ => []
    | some _, none => []
    | some r, some _ =>
      let result := if d.fail then 75 else r
      let resp := mt.toResponse result d.bcd
      respond resp.encode result (if result = 0 then smgpReport d mt resp.msgId else [])

/-- msc_server/server/sgip_submit.go:53-85 `handleSgipSubmit`; flow control code and simulated failure 33; no report -/
def sgipSubmit (d : Draw) (mt : Sgip.Submit) : List Act :=
  if d.allow = false then respond (mt.toResponse 33).encode 33 []
  else match sgipCheck d.account mt, Random.processTime d.random d.minMs d.maxMs with
    | none, _ => []
    | some _, none => []
    | some r, some _ =>
      let result := if d.fail then 33 else r
      respond (mt.toResponse result).encode result []

/-- cmpp_connect.go:62-71, smgp_login.go:62-71, sgip_bind.go:62-71: the callback of the login response. -/
def replyAfter : Option AuthConf → After
  | some ac => .login ac
  | none => .refuse

/-- cmpp_connect.go:61-71, smgp_login.go:61-71, sgip_bind.go:61-71: the login response and its callback. -/
def loginReply (frame : Option Bytes) (accepted : Option AuthConf) : List Act := write frame (replyAfter accepted) []

/-- cmpp_connect.go:50-57: the account, if the check passed (`code` 0) and it has room for another session. -/
def admitted (ac : Option AuthConf) (ok : Bool) (sessions : Int) : Option AuthConf :=
  if ok then ac.bind fun a => if sessions ≥ a.maxConns then none else some a else none

/-- msc_server/server/cmpp_connect.go:40-79 `handleCmppConnect` -/
def cmppConnect (md5 : Bytes → Bytes) (d : Draw) (l : Cmpp.Connect) : List Act :=
  let ac := d.find l.sourceAddr
  let c := l.check md5 ac
  let adm := admitted ac (c.1 = 0) d.sessions
  let code := if c.1 = 0 ∧ adm = none then 5 else c.1
  loginReply (c.2.toResponse md5 code.toUInt32).encode adm

/-- msc_server/server/smgp_login.go:40-79 `handleSmgpLogin` -/
def smgpLogin (md5 : Bytes → Bytes) (d : Draw) (l : Smgp.Login) : List Act :=
  let ac := d.find l.clientID
  let c := l.check md5 ac
  let adm := admitted ac (c.1 = 0) d.sessions
  let code := if c.1 = 0 ∧ adm = none then 2 else c.1
  loginReply (c.2.toResponse md5 code).encode adm

/-- msc_server/server/sgip_bind.go:40-79 `handleSgipBind` -/
def sgipBind (d : Draw) (l : Sgip.Bind) : List Act :=
  let ac := d.find l.loginName
  let c := l.check ac
  let adm := admitted ac (c = 0) d.sessions
  let code := if c = 0 ∧ adm = none then 3 else c
  loginReply (Sgip.bindRspEncode (l.toResponse code.toUInt32)) adm

/-- The effects of the task started for a packet. Responses to heartbeats: cmpp_active.go:43-70, smgp_active.go:43-70;
to terminations: cmpp_terminate.go:42-67, smgp_exit.go:42-67, sgip_unbind.go:42-67; received termination responses
close the connection: cmpp_terminate_resp.go:42-55, smgp_exit_resp.go:42-55, sgip_unbind_resp.go:42-55; heartbeat and
delivery responses have no answer: cmpp_active_resp.go:43-57, cmpp_delivery_resp.go:43-54 and the SMGP ones. -/
def work (gbDec : Bytes → Option Bytes) (md5 : Bytes → Bytes) (p : Proto) (ver : UInt8) (k : Kind) (seq : UInt32)
    (body : Bytes) (d : Draw) : List Act :=
  let f := Buf.exact body
  match p, k with
  | .cmpp, .submit => ((Cmpp.Submit.decode ver seq f).map (cmppSubmit d)).getD []
  | .cmpp, .login => ((Cmpp.Connect.decode seq f).map (cmppConnect md5 d)).getD []
  | .cmpp, .active => ((Cmpp.activeTestDecode seq f).map fun a =>
      write (Cmpp.activeTestRspEncode (Cmpp.activeTestToResponse a 0)) .none []).getD []
  | .cmpp, .terminate => ((Cmpp.terminateDecode seq f).map fun t =>
      write (Cmpp.terminateRspEncode (Cmpp.terminateToResponse t 0)) .close []).getD []
  | .smgp, .submit => ((Smgp.Submit.decode gbDec ver seq f).map (smgpSubmit d)).getD []
  | .smgp, .login => ((Smgp.Login.decode seq f).map (smgpLogin md5 d)).getD []
  | .smgp, .active => ((Smgp.activeTestDecode seq f).map fun a =>
      write (Smgp.activeTestRspEncode (Smgp.activeTestToResponse a 0)) .none []).getD []
  | .smgp, .terminate => ((Smgp.exitDecode seq f).map fun t =>
      write (Smgp.exitRspEncode (Smgp.exitToResponse t 0)) .close []).getD []
  | .sgip, .submit => ((Sgip.Submit.decode seq f).map (sgipSubmit d)).getD []
  | .sgip, .login => ((Sgip.Bind.decode seq f).map (sgipBind d)).getD []
  | .sgip, .terminate => ((Sgip.unbindDecode Sgip.UNBIND seq f).map fun t =>
      write (Sgip.unbindEncode (Sgip.unbindToResponse t 0)) .close []).getD []
  | _, .terminateResp => [.shut]
  | _, _ => []

/-- A packet for which a task was started: the session's version at that moment, the handler, and what it drew.
msc_server/server/cmpp_submit.go:17-52 and the other handlers. -/
structure Req where
  ver : UInt8
  kind : Kind
  cmd : UInt32
  seq : UInt32
  body : Bytes
  draw : Draw

/-- Where a task is: needing no window slot (logins, which have none, and flow control responses,
on_traffic.go:114-116), before its send on window number `g` (e.g. cmpp_submit.go:56), or holding a slot. -/
inductive Phase where
  | free | waiting (g : Nat) | inside (g : Nat)
deriving DecidableEq, Repr

/-- A task: the request it handles (its number), its phase, and what it still has to do. msc_server/server/cmpp_submit.go:54-89
and the other handlers. -/
structure Task where
  req : Nat
  phase : Phase
  acts : List Act
deriving DecidableEq, Repr

/-- One connection. `win` is the size of the session's window, `gen` how many windows there have been (completed
logins). `queue` are the frames waiting for the event loop, `wire` those written, each with the number of the
request it is for and what its callback does. `closing`: the server has asked for the connection to be closed. `slots` are the slots taken in the
present window; a negative number counts tasks that wait to give back a slot: a task gives back a slot of the window that is present when it ends
(`<-sc.window`, e.g. cmpp_submit.go:57), which after another login is not the one it took its slot from. Such a task has nothing else to do and is not kept in `tasks`. -/
structure State where
  stat : Stat := .connect
  ver : UInt8 := 0
  win : Nat := 0
  gen : Nat := 0
  slots : Int := 0
  mt : UInt64 := 0
  rpt : UInt64 := 0
  reqs : List Req := []
  tasks : List Task := []
  queue : List (Nat × Bytes × After) := []
  wire : List (Nat × Bytes × After) := []
  closing : Bool := false
  isOpen : Bool := true
  crashed : Bool := false

/-- A packet (msc_server/server/on_traffic.go:19-53), a task goes on (cmpp_submit.go:54-127 and the other handlers), the event
loop writes a frame and runs its callback, or the connection closes (on_close.go:14-24). -/
inductive Step where
  | packet (cmd seq : UInt32) (body : Bytes) (d : Draw)  -- a complete packet arrives
  | run (i : Nat)   -- task number `i` goes on
  | drop (i : Nat)  -- task number `i` sends on a closed window: a panic, recovered by the goroutine pool
  | loop            -- the event loop writes the next queued frame
  | close           -- the connection is closed

/-- What the server is configured with. msc_server/server/server.go:28-40 -/
structure Env where
  proto : Proto
  gbDec : Bytes → Option Bytes := some
  md5 : Bytes → Bytes

/-- Whether the task works without a slot of the window. msc_server/server/cmpp_submit.go:36-39, 54-57, cmpp_connect.go:27-28
(and the other handlers). -/
def phaseOf (s : State) (k : Kind) (d : Draw) : Phase :=
  if k = .login ∨ (k = .submit ∧ d.allow = false) then .free else .waiting s.gen

/-- A packet: Model/Handlers.lean `serve`; a task is started. msc_server/server/on_traffic.go:19-53 -/
def onPacket (e : Env) (s : State) (cmd seq : UInt32) (body : Bytes) (d : Draw) : State :=
  match serve e.gbDec e.proto s.stat s.ver cmd seq body with
  | .crash => { s with crashed := true }
  | .close => { s with isOpen := false }
  | .ignored => s
  | .task k =>
    { s with reqs := s.reqs ++ [⟨s.ver, k, cmd, seq, body, d⟩]
             tasks := s.tasks ++ [⟨s.reqs.length, phaseOf s k d, work e.gbDec e.md5 e.proto s.ver k seq body d⟩] }

/-- The next effect of a task. msc_server/server/cmpp_submit.go:54-127 and the other handlers. -/
def onAct (s : State) (k : Nat) : Act → State
  | .send f a => { s with queue := s.queue ++ [(k, f, a)] }
  | .shut => { s with closing := true }

/-- The slots taken once the task has ended. msc_server/server/cmpp_submit.go:57 and the same line in the other handlers. -/
def freed (s : State) (t : Task) : Int :=
  match t.phase with
  | .inside _ => s.slots - 1
  | _ => s.slots

/-- A task that needs no slot or has one does its next effect, or ends (giving back a slot of the present window).
msc_server/server/cmpp_submit.go:54-89 and the other handlers. -/
def onGo (s : State) (i : Nat) (t : Task) : State :=
  match t.acts with
  | [] => { s with tasks := s.tasks.eraseIdx i, slots := freed s t }
  | a :: rest => onAct { s with tasks := s.tasks.set i { t with acts := rest } } t.req a

/-- A task goes on; before its first effect it takes a slot of the present window if one is free (or hands it to a task waiting
to give one back). msc_server/server/cmpp_submit.go:54-89 and the other handlers. -/
def onRun (s : State) (i : Nat) : State :=
  match s.tasks[i]? with
  | none => s
  | some t =>
    match t.phase with
    | .waiting _ =>
      if s.slots < s.win then { s with slots := s.slots + 1, tasks := s.tasks.set i { t with phase := .inside s.gen } } else s
    | .free => onGo s i t
    | .inside _ => onGo s i t

/-- session.go:80, 103-106: a second login closes the window the task waits for. -/
def onDrop (s : State) (i : Nat) : State :=
  match s.tasks[i]? with
  | some ⟨_, .waiting g, _⟩ => if g < s.gen then { s with tasks := s.tasks.eraseIdx i } else s
  | _ => s

/-- The callback of a written frame; session.go:72-84 `completeLogin` (a negative window size panics). -/
def onAfter (s : State) : After → State
  | .none => s
  | .mt => { s with mt := s.mt + 1 }
  | .rpt => { s with rpt := s.rpt + 1 }
  | .close => { s with closing := true }
  | .login ac =>
    if ac.mtWindowSize < 0 then { s with crashed := true }
    else { s with stat := .login, ver := ac.version, win := ac.mtWindowSize.toNat, gen := s.gen + 1, slots := 0 }
  | .refuse => { s with stat := .closing, closing := true }

/-- The event loop writes the next frame. The callbacks given to `AsyncWrite`, as msc_server/server/on_traffic.go:129-133, are
run here. -/
def onLoop (s : State) : State :=
  match s.queue with
  | [] => s
  | (k, f, a) :: q => onAfter { s with queue := q, wire := s.wire ++ [(k, f, a)] } a

/-- One step. After the connection is closed or the process has ended nothing is written any more.
msc_server/server/on_traffic.go:19-53, on_close.go:14-35 -/
def step (e : Env) (s : State) (x : Step) : State :=
  if s.crashed ∨ s.isOpen = false then s
  else match x with
    | .packet cmd seq body d => onPacket e s cmd seq body d
    | .run i => onRun s i
    | .drop i => onDrop s i
    | .loop => onLoop s
    | .close => { s with isOpen := false }

/-- A history of one connection of msc_server/server/server.go:42-55. -/
def run (e : Env) (steps : List Step) : State := steps.foldl (step e) {}

end Gosms.ServerTraffic
