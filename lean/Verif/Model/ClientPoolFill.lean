import Verif.Go.Bytes

/-!
# A carrier's pool while connections are being made

msc_client/session_factory.go:281-314 `lruSort`, run by one goroutine per carrier (262-279), and the loop of `PeekSession` (144-162),
run by the goroutines that send. Model/ClientPool has a whole run of `lruSort` as one step; here each attempt to connect is a
step of its own, so that sessions break and goroutines look for a session in between. Sessions are numbered. What
`lruSort` does under its lock (sorting, lines 289-301) is one step, with any order of the sessions kept.

Left out: the limiter before the loop, the shutdown signal, the counters the sort goes by (all in Model/ClientPool).
-/

namespace Gosms.ClientPoolFill

/-- A goroutine in `PeekSession`: `looking`, with its variable `ret`; or it returned a session.
msc_client/session_factory.go:144-161 -/
inductive Pc where
  | idle
  | looking (ret : Option Nat)
  | got (i : Nat)
deriving DecidableEq, Repr

/-- `dead`: the sessions whose `HealthCheck` fails. `filling`: the ticker's goroutine is in the loop of lines 303-313.
msc_client/session_factory.go:35-44, 281-314 -/
structure State where
  pool : List Nat := []
  dead : List Nat := []
  filling : Bool := false
  pc : Nat → Pc := fun _ => .idle

/-- The steps of the ticker's goroutine (msc_client/session_factory.go:289-301, 303-313), of goroutines in `PeekSession` (lines
154-159), and sessions that break. -/
inductive Step where
  | breaks (i : Nat)          -- a session becomes unusable; if it is not in the pool yet, it will be when it comes
  | tick (kept : List Nat)    -- lines 282-301: the pool becomes the healthy sessions, in the order of the sort
  | dial (r : Option Nat)     -- lines 303-313, one turn: `newConnect` adds a session or fails
  | call (n : Nat)            -- goroutine `n` calls `PeekSession`, and the limiter lets it pass
  | look (n : Nat)            -- lines 154-160, one turn
deriving DecidableEq, Repr

/-- A goroutine goes on in msc_client/session_factory.go:144-161. -/
def State.goto (s : State) (n : Nat) (p : Pc) : State := { s with pc := fun m => if m = n then p else s.pc m }

/-- One step; `want` is the number of connections wanted (lines 282-286). msc_client/session_factory.go:144-161, 281-314 -/
def step (want : Nat) (s : State) : Step → State
  | .breaks i => { s with dead := i :: s.dead }
  | .tick kept =>
    if s.filling = false ∧ kept.isPerm (s.pool.filter fun i => !s.dead.contains i) then
      { s with pool := kept, filling := decide (kept.length < want) }
    else s
  | .dial r =>
    if s.filling then
      { s with pool := s.pool ++ r.toList, filling := decide ((s.pool ++ r.toList).length < want) }
    else s
  | .call n => match s.pc n with
    | .looking _ => s
    | _ => s.goto n (.looking none)
  | .look n => match s.pc n with
    | .looking ret =>
      match s.pool.head?.or ret with
      | some i => if s.dead.contains i then s.goto n (.looking (some i)) else s.goto n (.got i)
      | none => s
    | _ => s

/-- `first`: the session made with the factory, lines 109-117. msc_client/session_factory.go:109-117, 281-314 -/
def run (want : Nat) (first : Option Nat) (steps : List Step) : State := steps.foldl (step want) { pool := first.toList }

end Gosms.ClientPoolFill
