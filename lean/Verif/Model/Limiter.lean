/-!
# The submit rate limiter

Model of the limiter settings of server and client, and of the token bucket of golang.org/x/time/rate that
enforces them. The bucket is kept in nanoseconds of credit (one token costs `interval` nanoseconds) in exact
arithmetic; the library keeps the same quantity as a float64 number of tokens. Times are nanoseconds of a
monotonic clock.
-/

namespace Gosms.Limiter

/-- golang.org/x/time/rate `Limiter`. `interval = none` is the limit `Inf`. Used at msc_server/server/session.go:86-95,
msc_client/session_factory.go:119-135. -/
structure Limiter where
  interval : Option Nat
  burst : Nat
  credit : Nat
  last : Nat
deriving DecidableEq, Repr

/-- `rate.NewLimiter(rate.Every(ev), burst)`, `ev` in nanoseconds: `Every` of a non-positive interval is `Inf`; the bucket is
full at the first call. Used at msc_server/server/session.go:86-95, msc_client/session_factory.go:119-135. -/
def new (ev : Int) (burst : Nat) : Limiter :=
  if ev ≤ 0 then ⟨none, burst, 0, 0⟩ else ⟨some ev.toNat, burst, burst * ev.toNat, 0⟩

/-- `Limiter.Allow` at time `t`. Used at msc_server/server/on_traffic.go:111, msc_client/session_factory.go:145. -/
def allow (l : Limiter) (t : Nat) : Limiter × Bool :=
  match l.interval with
  | none => (l, true)
  | some ev =>
    let c := min (l.burst * ev) (l.credit + (t - l.last))
    if ev ≤ c then ({ l with credit := c - ev, last := t }, true) else (l, false)

/-- Calls of `Allow` at the given times: the limiter afterwards and the answers. Used at msc_server/server/on_traffic.go:111,
msc_client/session_factory.go:145. -/
def run (l : Limiter) (ts : List Nat) : Limiter × List Bool :=
  ts.foldl (fun s t => ((allow s.1 t).1, s.2 ++ [(allow s.1 t).2])) (l, [])

/-- msc_server/server/session.go:86-95 `setupLimiter` for an account (non-nil): the interval in
nanoseconds. Go's integer division truncates. -/
def serverInterval (throughput : Int) : Int :=
  if throughput ≠ 0 then (Int.tdiv 1000000 throughput) * 1000 else 10 * 1000000

/-- msc_server/server/session.go:86-95 `setupLimiter`; the burst is the capacity of the window,
`MtWindowSize` (line 81; `make` panics if it is negative). -/
def setupLimiter (throughput : Int) (windowSize : Nat) : Limiter := new (serverInterval throughput) windowSize

/-- msc_client/session_factory.go:126-134: the interval in nanoseconds. -/
def clientInterval (throughput : Int) : Int :=
  if throughput > 0 then (Int.tdiv 1000000 throughput) * 1000 else 10 * 1000000

/-- msc_client/session_factory.go:120-125: the capacity of the window; `make` panics if negative. -/
def clientWindow (maxConns winSize : Int) : Option Nat :=
  if maxConns > 0 then (if winSize < 0 then none else some winSize.toNat) else some 16

/-- msc_client/session_factory.go:126-135 -/
def clientLimiter (throughput : Int) (window : Nat) : Limiter := new (clientInterval throughput) window

/-- msc_client/session_factory.go:119-135: the limiter of a carrier's factory; `none`: `make` panics. It is the only use
of the window: nothing is ever sent to or received from this channel (it is closed at shutdown, line 351). -/
def clientFactory (maxConns winSize throughput : Int) : Option Limiter :=
  (clientWindow maxConns winSize).map (clientLimiter throughput)

end Gosms.Limiter
