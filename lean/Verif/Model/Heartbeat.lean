import Verif.Model.Names

/-!
# Heartbeats and inactivity of one session

The part of msc_server/server/on_tick.go that looks after one session, with the handlers that change the fields it
reads. Times are integers (nanoseconds). Writing a heartbeat and running the callback of that write are one step,
because both happen in the connection's event loop. Left out: what other traffic does besides updating
`lastUseTime`, the mock deliveries, failed writes, and the closing of the connection that follows the terminate
packet (on_tick.go:181-186).
-/

namespace Gosms.Heartbeat

/-- What the peer or an observer sees. msc_server/server/on_tick.go:49-108, 167-194 -/
inductive Ev where
  | beat (t : Int)       -- heartbeat sent
  | answer (t : Int)     -- response to a heartbeat handled
  | use (t : Int)        -- other traffic that counts as activity, or a login
  | endIdle (t : Int)    -- terminated: no activity
  | endBeat (t : Int)    -- terminated: heartbeats unanswered
deriving DecidableEq, Repr

/-- Protocol and `Server.ForceCloseConnTime`. msc_server/server/on_tick.go:61-72 -/
structure Env where
  proto : Proto
  force : Int

/-- `session.nAt` (a byte), `lastUseTime`, whether the session is logged in (session.go:24-28), heartbeat tasks
waiting in the goroutine pool, and the events so far. -/
structure State where
  nAt : UInt8 := 0
  lastUse : Int
  login : Bool := false
  tasks : Nat := 0
  log : List Ev := []
deriving DecidableEq, Repr

/-- A tick (msc_server/server/on_tick.go:19-47), a heartbeat written (74-108), its answer (cmpp_active_resp.go:43-57), and the
other uses of the session. -/
inductive Step where
  | tick (now : Int)
  | task (now : Int)
  | answer (now : Int)
  | use (now : Int)
  | login (now : Int)
deriving DecidableEq, Repr

/-- One minute, on_tick.go:77. -/
def minute : Int := 60000000000

/-- msc_server/server/on_tick.go:23-47 for one session: `closeCheck` (61-72), `activeTestNoneResponseCheck`
(49-59), then `activeTest` (74) -/
def onTick (e : Env) (s : State) (now : Int) : State :=
  if s.lastUse + e.force < now then { s with log := s.log ++ [.endIdle now] }
  else if s.nAt > 2 then { s with log := s.log ++ [.endBeat now] }
  else if s.login then { s with tasks := s.tasks + 1 }
  else s

/-- msc_server/server/on_tick.go:75-107: the task of `activeTest`; SGIP has no heartbeat (83-84) -/
def onTask (e : Env) (s : State) (now : Int) : State :=
  if s.tasks = 0 then s
  else
    let s := { s with tasks := s.tasks - 1 }
    if s.lastUse + minute < now ∧ e.proto ≠ .sgip then { s with nAt := s.nAt + 1, log := s.log ++ [.beat now] } else s

/-- One step. `answer`: cmpp_active_resp.go:53-56, smgp_active_resp.go:53-56. `use`: cmpp_active.go:64,
cmpp_delivery_resp.go:52, session.go:224, 239. `login`: session.go:76-79. -/
def step (e : Env) (s : State) : Step → State
  | .tick now => onTick e s now
  | .task now => onTask e s now
  | .answer now =>
    if s.login ∧ e.proto ≠ .sgip then { s with nAt := 0, lastUse := now, log := s.log ++ [.answer now] } else s
  | .use now => { s with lastUse := now, log := s.log ++ [.use now] }
  | .login now => { s with login := true, lastUse := now, log := s.log ++ [.use now] }

/-- A run of a session created at time `t0` (session.go:48-56). -/
def run (e : Env) (t0 : Int) (steps : List Step) : State := steps.foldl (step e) { lastUse := t0 }

end Gosms.Heartbeat
