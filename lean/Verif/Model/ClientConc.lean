import Verif.Model.ClientLogin

/-!
# One client session used by several goroutines

msc_client/session/session.go:86-101 `Close`, 104-154 `startReceiver`, 263-274 `HealthCheck`, and the uses of the
connection by senders (msc_client/session/on_traffic_cmpp.go:14-33). Each goroutine is a small program over the fields
`stat`, `con` (nil or not), `authConf` (nil or not), the channel `cancel` (capacity 1) and the mutex. A schedule is
any list of goroutine numbers; each entry lets this goroutine take its next step. Steps are the individual reads and
writes of the fields (sequentially consistent; Go's memory model allows more for such racy programs). A panic in any goroutine
ends the process.
-/

namespace Gosms.ClientConc
open Gosms.ClientLogin (Stat)

/-- What a goroutine does. msc_client/session/session.go:86-101, 104-154, msc_client/session/on_traffic_cmpp.go:14-34 -/
inductive Role where
  | close   -- calls `Close`
  | recv    -- the receiver
  | send    -- takes the session (if healthy) and sends one packet
deriving DecidableEq, Repr

/-- Where a goroutine is. `c*`: in `Close`. msc_client/session/session.go:86-101, 104-154,
msc_client/session/on_traffic_cmpp.go:14-34 -/
inductive Pc where
  | start
  | c1    -- passed the test of `stat` (line 87), waits for the mutex (line 91)
  | c2    -- has the mutex; next `stat = StatClosing` (line 95)
  | c3    -- next `con.Close()` (line 96)
  | c4    -- next `cancel <- struct{}{}` (line 98)
  | c5    -- next `con = nil` (line 99)
  | c6    -- next `authConf = nil` and unlock (lines 100, 92)
  | r1    -- receiver: no cancel signal; next HealthCheck (line 115)
  | r2    -- receiver: healthy; next `con.Read` (lines 120, 141)
  | s1    -- sender: healthy (session_factory.go:144-161); next `NewSubmit(authConf, ...)`
  | s2    -- sender: next `con.Write`
  | done
deriving DecidableEq, Repr

/-- The fields of msc_client/session/session.go:19-31 that are used, how often the connection was closed, whether a goroutine
panicked, and where the goroutines are. -/
structure State where
  stat : Stat := .login
  con : Bool := true
  auth : Bool := true
  cancel : Nat := 0
  lock : Option Nat := none
  closes : Nat := 0
  panicked : Bool := false
  pc : Nat → Pc := fun _ => .start

/-- A goroutine goes on to another line of msc_client/session/session.go:86-154. -/
def State.goto (s : State) (t : Nat) (p : Pc) : State := { s with pc := fun u => if u = t then p else s.pc u }

/-- A panic in any goroutine, as of a nil connection at msc_client/session/session.go:96, 120. -/
def State.panic (s : State) : State := { s with panicked := true }

/-- session.go:264 -/
def State.healthy (s : State) : Bool := s.stat == .login && s.con && s.auth

/-- session.go:86-89: entering `Close`. -/
def enterClose (s : State) (t : Nat) : State := if s.stat = .closing then s.goto t .done else s.goto t .c1

/-- The next step of goroutine `t`. `fail`: an operation on the connection returns an error.
msc_client/session/session.go:86-101, 104-154, 263-274, msc_client/session/on_traffic_cmpp.go:14-34 -/
def step (role : Nat → Role) (s : State) (x : Nat × Bool) : State :=
  let (t, fail) := x
  if s.panicked then s
  else match s.pc t with
    | .start =>
      match role t with
      | .close => enterClose s t
      | .recv => if s.cancel > 0 then { s with cancel := s.cancel - 1 }.goto t .done else s.goto t .r1
      | .send => if s.healthy then s.goto t .s1 else s.goto t .done
    | .c1 => if s.lock = none then { s with lock := some t }.goto t .c2 else s
    | .c2 => { s with stat := .closing }.goto t .c3
    | .c3 => if s.con then { s with closes := s.closes + 1 }.goto t .c4 else s.panic
    | .c4 => if s.cancel < 1 then { s with cancel := s.cancel + 1 }.goto t .c5 else s
    | .c5 => { s with con := false }.goto t .c6
    | .c6 => { s with auth := false, lock := none }.goto t .done
    | .r1 => if s.healthy then s.goto t .r2 else s.goto t .done
    | .r2 => if s.con then (if fail then enterClose s t else s.goto t .start) else s.panic
    | .s1 => if s.auth then s.goto t .s2 else s.panic
    | .s2 => if s.con then (if fail then enterClose s t else s.goto t .done) else s.panic
    | .done => s

/-- Goroutines running msc_client/session/session.go:86-154 and on_traffic_cmpp.go:14-34 by the schedule `sched`. -/
def run (role : Nat → Role) (sched : List (Nat × Bool)) : State := sched.foldl (step role) {}

end Gosms.ClientConc
