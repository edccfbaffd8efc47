/-!
# The intervals of periodic work

The server reloads its accounts (auth/client_store.go:52-68) and looks after its connections (msc_server/server/on_tick.go:19-47); the client
throws old results away (msc_client/session_factory.go:164-185) and tends its connections (262-281). Each has its interval from the
configuration. What the work itself does is in Model/Reload, ServerTicks, Client and ClientPool; here is when it is done. Left out: that shutdown stops the ticker of the client's
connections (msc_client/session_factory.go:271-273, Model/ClientStop).

From the documentation of time: a ticker has room for one tick, sends one at every multiple of its interval from its start and drops those
there is no room for; `NewTicker` panics if the interval is not positive; a timer whose time is not positive fires at once. From that of the
network library: `OnTick` is called at the start and then each time its delay has gone by since it returned. A panic in a goroutine that does
not recover ends the process; none of these does. Times and intervals are integers (nanoseconds).
-/

namespace Gosms.Intervals

/-- One second. msc_client/session_factory.go:168, 266 -/
def second : Int := 1000000000

/-- The reading of an interval: what is configured, or the default if nothing (or zero) is. auth/client_store.go:54-58,
msc_client/session_factory.go:166-169, 264-267 -/
def orDefault (configured dflt : Int) : Int := if configured = 0 then dflt else configured

/-- The three jobs with a ticker. auth/client_store.go:52-68, msc_client/session_factory.go:164-185, 262-281 -/
inductive Job where
  | reload | expire | sort
deriving DecidableEq, Repr

/-- auth/client_store.go:54-58, msc_client/session_factory.go:166-169, 264-267 -/
def interval (j : Job) (configured : Int) : Int :=
  match j with
  | .reload => orDefault configured (5 * 60 * second)
  | .expire => orDefault configured second
  | .sort => orDefault configured second

/-- A job and its ticker: the interval, the moment of the next tick, whether a tick is in the channel, and when the job ran (last first).
auth/client_store.go:59-66, msc_client/session_factory.go:170-184, 268-280 -/
structure State where
  d : Int
  now : Int
  next : Int
  full : Bool := false
  runs : List Int := []
deriving DecidableEq, Repr

/-- The goroutine of a job starts at `t0`: `none` if `NewTicker` panics. auth/client_store.go:53-60, msc_client/session_factory.go:165-171,
263-269 -/
def start (j : Job) (configured t0 : Int) : Option State :=
  let d := interval j configured
  if d ≤ 0 then none else some { d, now := t0, next := t0 + d }

/-- Time goes by; the job is ready for the next tick. auth/client_store.go:62-66, msc_client/session_factory.go:173-184, 277-280 -/
inductive Step where
  | pass (t : Int)   -- to the moment `t`
  | receive          -- the job is at `<-ticker.C`: it runs if a tick is there
deriving DecidableEq, Repr

/-- auth/client_store.go:62-66, msc_client/session_factory.go:173-184, 277-280. How long a job runs shows in when it is ready again. -/
def step (s : State) : Step → State
  | .pass t =>
    if t < s.now then s
    else if t < s.next then { s with now := t }
    else { s with now := t, full := true, next := s.next + s.d * ((t - s.next) / s.d + 1) }
  | .receive => if s.full then { s with full := false, runs := s.now :: s.runs } else s

/-- A history of auth/client_store.go:62-66, msc_client/session_factory.go:173-184 or 277-280. -/
def run (s : State) (steps : List Step) : State := steps.foldl step s

/-- A call of `OnTick` began, or returned with its delay. msc_server/server/on_tick.go:19, 46 -/
inductive Ev where
  | began (t : Int)
  | ended (t delay : Int)
deriving DecidableEq, Repr

/-- The server's ticker: busy in `OnTick` or waiting until `due`, and the calls so far. msc_server/server/on_tick.go:19-47 -/
structure Server where
  now : Int
  due : Int
  busy : Bool := false
  log : List Ev := []
deriving DecidableEq, Repr

/-- Time goes by; `OnTick` is called (msc_server/server/on_tick.go:19); it returns (46), `Server.TickDuration` being `delay`. -/
inductive SStep where
  | pass (t : Int)
  | begin
  | finish (delay : Int)
deriving DecidableEq, Repr

/-- msc_server/server/on_tick.go:19-47 as the network library calls it. -/
def sstep (s : Server) : SStep → Server
  | .pass t => if t < s.now then s else { s with now := t }
  | .begin => if s.busy = false ∧ s.due ≤ s.now then { s with busy := true, log := s.log ++ [.began s.now] } else s
  | .finish delay => if s.busy then { s with busy := false, due := s.now + delay, log := s.log ++ [.ended s.now delay] } else s

/-- The server's ticker from the start `t0` on. msc_server/server/on_tick.go:19-47 -/
def srun (t0 : Int) (steps : List SStep) : Server := steps.foldl sstep { now := t0, due := t0 }

end Gosms.Intervals
