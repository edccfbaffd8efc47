import Verif.Model.Handlers

/-!
# Connections, sessions and logins of one server

A state machine over the steps of msc_server/server that create, change and remove sessions. Each step runs
atomically: callbacks of one gnet event loop (`open`, `packet`, `loginDone`, `close`) and tasks of the
goroutine pool (`loginCheck`) interleave in any order. Connections are numbered; the session object of
connection `n` is `obj n`. Left out: logging, heartbeats (Model/Heartbeat), windows (Model/Window), a full
goroutine pool, data races inside one step.
-/

namespace Gosms.Sessions
open Handlers

/-- The parts of msc_server/server/session.go:18-33 `session` used here. -/
structure Sess where
  clientId : Bytes := []
  ver : UInt8 := 0
  stat : Stat := .connect
deriving DecidableEq, Repr

/-- What the server is configured with: protocol, `MaxSessions` (server.go:64), the GB18030 decoder, MD5 and
`msc.FindAuthConf` for this server's name. `late` says whether the network library still runs a write
callback after the connection has been closed. -/
structure Env where
  proto : Proto
  cap : Int
  gbDec : Bytes → Option Bytes := some
  md5 : Bytes → Bytes
  find : Bytes → Option AuthConf
  late : Bool := false

/-- What happens in the server, in order. msc_server/server/on_open.go:12-24, on_close.go:14-35, cmpp_connect.go:40-79 -/
inductive Ev where
  | opened (n : Nat)
  | served (n : Nat) (k : Kind)
  | accepted (n : Nat) (client : Bytes)
  | closed (n : Nat)
deriving DecidableEq, Repr

/-- The server: session objects, the session pool (`sync.Map`, by session id), the connections with a session that are open,
`activeSessions`, login packets waiting for a goroutine, login responses waiting for the event loop (with the account if
accepted), the events so far, and whether the process has ended by a panic. msc_server/server/server.go:28-40 -/
structure State where
  obj : Nat → Sess := fun _ => {}
  pool : List Nat := []
  live : List Nat := []
  used : List Nat := []
  active : Int := 0
  waiting : List (Nat × UInt32 × Bytes) := []
  checked : List (Nat × Option AuthConf) := []
  log : List Ev := []
  crashed : Bool := false

/-- One step. msc_server/server/on_open.go:12-24, on_traffic.go:19-53, cmpp_connect.go:40-79, on_close.go:14-35 -/
inductive Step where
  | «open» (n : Nat)
  | packet (n : Nat) (cmd seq : UInt32) (body : Bytes)
  | loginCheck (i : Nat)
  | loginDone (i : Nat)
  | close (n : Nat)
deriving DecidableEq, Repr

/-- The account a login packet logs into, if it is accepted: cmpp_connect.go:46-47, sgip_bind.go:46-47,
smgp_login.go:46-47 with the protocol's `Check`. -/
def loginAccount (e : Env) (seq : UInt32) (body : Bytes) : Option AuthConf :=
  match e.proto with
  | .cmpp => (Cmpp.Connect.decode seq (Buf.exact body)).bind fun l =>
      let ac := e.find l.sourceAddr
      if (l.check e.md5 ac).1 = 0 then ac else none
  | .sgip => (Sgip.Bind.decode seq (Buf.exact body)).bind fun l =>
      let ac := e.find l.loginName
      if l.check ac = 0 then ac else none
  | .smgp => (Smgp.Login.decode seq (Buf.exact body)).bind fun l =>
      let ac := e.find l.clientID
      if (l.check e.md5 ac).1 = 0 then ac else none

/-- msc_server/server/server.go:92-103 `CountSessionByClientId` -/
def countClient (s : State) (client : Bytes) : Nat := (s.pool.filter fun n => (s.obj n).clientId = client).length

/-- Change one session object. msc_server/server/session.go:18-33 -/
def setObj (obj : Nat → Sess) (n : Nat) (x : Sess) : Nat → Sess := fun m => if m = n then x else obj m

/-- msc_server/server/on_close.go:14-35 `OnClose` for a connection with a session -/
def onClose (s : State) (n : Nat) : State :=
  { s with pool := s.pool.filter (· ≠ n), live := s.live.filter (· ≠ n), active := s.active - 1,
           log := s.log ++ [.closed n] }

/-- msc_server/server/on_open.go:12-24 `OnOpen`, server.go:81-90 `CreateSession`. When the threshold is reached no
session is made and the connection is closed; gnet then calls `OnClose`, where (on_close.go:16, 21)
`sc.LogCounter()` reads `s.serverName` (session.go:193) of a nil session: a panic in the event loop, after
the deferred `deferFunc` (on_close.go:26-30) has decremented the counter. -/
def onOpen (e : Env) (s : State) (n : Nat) : State :=
  if s.active ≥ e.cap then { s with active := s.active - 1, crashed := true }
  else { s with obj := setObj s.obj n {}, pool := n :: s.pool, live := n :: s.live, used := n :: s.used,
                active := s.active + 1, log := s.log ++ [.opened n] }

/-- msc_server/server/on_traffic.go:19-32 for a complete packet; a login becomes a task of `goPool`
(cmpp_connect.go:27-29), other tasks count as served. -/
def onPacket (e : Env) (s : State) (n : Nat) (cmd seq : UInt32) (body : Bytes) : State :=
  match serve e.gbDec e.proto (s.obj n).stat (s.obj n).ver cmd seq body with
  | .crash => { s with crashed := true }
  | .close => onClose s n
  | .ignored => s
  | .task .login => { s with waiting := s.waiting ++ [(n, seq, body)] }
  | .task k => { s with log := s.log ++ [.served n k] }

/-- msc_server/server/cmpp_connect.go:40-61 (sgip_bind.go:40-61, smgp_login.go:40-61): the check, up to
`AsyncWrite`. After the connection has been closed `sc.conn` is nil (on_close.go:32): the panic is recovered
by the goroutine pool and nothing is written. -/
def onCheck (e : Env) (s : State) (i : Nat) : State :=
  match s.waiting[i]? with
  | none => s
  | some (n, seq, body) =>
    let s := { s with waiting := s.waiting.eraseIdx i }
    if n ∈ s.live then
      let ac := (loginAccount e seq body).bind fun ac =>
        if (countClient s ac.clientId : Int) ≥ ac.maxConns then none else some ac
      { s with checked := s.checked ++ [(n, ac)] }
    else s

/-- msc_server/server/cmpp_connect.go:61-75: the callback of `AsyncWrite`, with session.go:72-84
`completeLogin` (the window, goroutine pool and limiter are left out). -/
def onDone (e : Env) (s : State) (i : Nat) : State :=
  match s.checked[i]? with
  | none => s
  | some (n, ac) =>
    let s := { s with checked := s.checked.eraseIdx i }
    if n ∈ s.live ∨ e.late = true then
      match ac with
      | some ac =>
        { s with obj := setObj s.obj n ⟨ac.clientId, ac.version, .login⟩
                 pool := if n ∈ s.pool then s.pool else n :: s.pool
                 log := s.log ++ [.accepted n ac.clientId] }
      | none =>
        let s := { s with obj := setObj s.obj n { s.obj n with stat := .closing } }
        if n ∈ s.live then onClose s n else s
    else s

/-- One step of the server. A step that is not possible, or any step after the process has ended, changes nothing.
msc_server/server/on_open.go:12-24, on_traffic.go:19-53, cmpp_connect.go:40-79, on_close.go:14-35 -/
def step (e : Env) (s : State) (x : Step) : State :=
  if s.crashed then s
  else match x with
    | .open n => if n ∈ s.used then s else onOpen e s n
    | .packet n cmd seq body => if n ∈ s.live then onPacket e s n cmd seq body else s
    | .loginCheck i => onCheck e s i
    | .loginDone i => onDone e s i
    | .close n => if n ∈ s.live then onClose s n else s

/-- A run from the start. A history of msc_server/server/server.go:42-55. -/
def run (e : Env) (steps : List Step) : State := steps.foldl (step e) {}

end Gosms.Sessions
