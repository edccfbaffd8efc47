import Verif.Model.ClientPool

/-!
# Choosing a session from several goroutines

msc_client/session_factory.go:46-68 `SelectSession` and 71-142 `CreateSessionFactory`, called by any number of goroutines (api.go:30).
The choice is made under one lock, `mu`, which is not released when the goroutine panics (the `Unlock` of line 62 is not deferred). The first
goroutine that comes to a carrier makes its factory: it dials and logs in (lines 109-117; session.go:167-261, without any time limit) while
holding the lock. Steps of the goroutines interleave in any order.

Left out: `PeekSession`, which runs after the lock is released (Model/ClientPool); the ticker and the hooks started by the
factory. The goroutines' panics are recovered by their pool (bootstrap.go:143-145).
-/

namespace Gosms.ClientSelect
open Gosms.ClientPool

/-- The configuration: Model/ClientPool.lean, and the carriers whose window has a negative size, for which line 122 panics
(max-conns is positive and mt-window-size negative). msc_client/session_factory.go:71-141 -/
structure Config extends Conf where
  negative : Isp → Bool := fun _ => false

/-- Where a goroutine is. msc_client/session_factory.go:47-68, 71-141 -/
inductive Pc where
  | idle
  | waiting (phone : Bytes)                           -- at `mu.Lock()`, line 48
  | scanning (phone : Bytes) (todo : List Isp)        -- in the loop, lines 50-61
  | dialing (phone : Bytes) (i : Isp) (todo : List Isp) -- in `net.Dial` or `login`, lines 110-112
  | chosen (phone : Bytes) (c : Option Isp)           -- after `mu.Unlock()`, line 62
  | panicked
deriving DecidableEq, Repr

/-- `lock`: the goroutine that holds `mu`. `made`: the array `factories`. `dials`: the carriers dialed by
`CreateSessionFactory`, in order. msc_client/session_factory.go:24, 29 -/
structure State where
  lock : Option Nat := none
  made : Factories := fun _ => none
  pc : Nat → Pc := fun _ => .idle
  dials : List Isp := []

/-- The steps of the goroutines in msc_client/session_factory.go:47-68 and 71-141. -/
inductive Step where
  | call (n : Nat) (phone : Bytes)     -- goroutine `n` calls `SelectSession`
  | go (n : Nat)                       -- it goes on, unless it waits for the lock or the network
  | dialed (n : Nat) (panics : Bool)   -- dialing and logging in came to an end, with or without a session; `login` may panic (Model/ClientLogin)
deriving DecidableEq, Repr

/-- A goroutine goes on in msc_client/session_factory.go:47-68. -/
def State.goto (s : State) (n : Nat) (p : Pc) : State := { s with pc := fun m => if m = n then p else s.pc m }

/-- session_factory.go:57-60: `factory.regex.MatchString(phone)`; a nil pattern panics. -/
def test (s : State) (n : Nat) (phone : Bytes) (i : Isp) (todo : List Isp) : Option Regex → State
  | none => s.goto n .panicked
  | some re => if re phone then { s with lock := none }.goto n (.chosen phone (some i)) else s.goto n (.scanning phone todo)

/-- One step; a goroutine that cannot go on stays where it is. msc_client/session_factory.go:47-68, 71-141 -/
def step (compile : Bytes → Option Regex) (conf : Config) (s : State) : Step → State
  | .call n phone => match s.pc n with
    | .idle => s.goto n (.waiting phone)
    | .chosen _ _ => s.goto n (.waiting phone)
    | _ => s
  | .go n => match s.pc n with
    | .waiting phone =>
      if s.lock = none then { s with lock := some n }.goto n (.scanning phone [.cmpp, .sgip, .smgp]) else s
    | .scanning phone [] => { s with lock := none }.goto n (.chosen phone none)
    | .scanning phone (i :: todo) => match s.made i with
      | some f => test s n phone i todo f
      | none =>
        if conf.account i then { s with dials := s.dials ++ [i] }.goto n (.dialing phone i todo)
        else s.goto n (.scanning phone todo)
    | _ => s
  | .dialed n panics => match s.pc n with
    | .dialing phone i todo =>
      if panics || conf.negative i then s.goto n .panicked
      else
        let f := compile (conf.segment i)
        test { s with made := fun j => if j = i then some f else s.made j } n phone i todo f
    | _ => s

/-- A schedule of goroutines in msc_client/session_factory.go:47-68. -/
def run (compile : Bytes → Option Regex) (conf : Config) (steps : List Step) : State := steps.foldl (step compile conf) {}

end Gosms.ClientSelect
