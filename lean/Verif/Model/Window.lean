/-!
# The receive window of one session

Every handler task of a session begins with `sc.window <- struct{}{}` and defers `<-sc.window`
(e.g. msc_server/server/cmpp_submit.go:56-57; the same two lines in every handler but the logins). `completeLogin`
(session.go:72-84) closes the old window and makes a new one; `closeResource` (session.go:98-112) closes it and
sets it to nil. Modelled: Go channels (capacity, fill, closed), which channel each send and receive works on (the
field is read when the operation starts), blocking, panics. Left out: the goroutine pool that limits how many
tasks are waiting, and what handlers do between the two operations.
-/

namespace Gosms.Window

/-- A buffered Go channel of empty structs. msc_server/server/session.go:18-33 (`window`). -/
structure Chan where
  cap : Nat
  cnt : Nat := 0
  closed : Bool := false
deriving DecidableEq, Repr

/-- `chans` are all windows ever made, `cur` the one in the session's field (`none` is nil). `entering` are the tasks at their
send with the channel they send on, `running` those between send and receive, `leaving` those at their receive, `ended` those
that have received; `panicked` those whose send panicked (recovered by the pool). `crashed`: a panic in the event loop.
msc_server/server/session.go:72-84, 98-112 -/
structure State where
  chans : List Chan := []
  cur : Option Nat := none
  entering : List (Option Nat) := []
  running : Nat := 0
  leaving : List (Option Nat) := []
  ended : Nat := 0
  panicked : Nat := 0
  crashed : Bool := false
deriving DecidableEq, Repr

/-- A login completes (msc_server/server/session.go:72-84), the session closes (98-112), a task begins its send, its send or its
receive goes through (cmpp_submit.go:56-57). -/
inductive Step where
  | login (size : Int)
  | close
  | start
  | send (i : Nat)
  | finish
  | receive (i : Nat)
  | handoff (i j : Nat)
deriving DecidableEq, Repr

/-- msc_server/server/session.go:103-106: close the current window, if any. -/
def closeCur (s : State) : List Chan :=
  match s.cur with
  | some g => s.chans.modify g fun c => { c with closed := true }
  | none => s.chans

/-- One step; steps that are not possible (a blocked operation) change nothing. msc_server/server/session.go:72-84, 98-112,
cmpp_submit.go:56-57 -/
def step (s : State) : Step → State
  | .login size => -- session.go:80-81; `make` with a negative size panics
    if size < 0 then { s with crashed := true }
    else { s with chans := closeCur s ++ [⟨size.toNat, 0, false⟩], cur := some s.chans.length }
  | .close => { s with chans := closeCur s, cur := none } -- session.go:98-112
  | .start => { s with entering := s.entering ++ [s.cur] }
  | .send i => -- cmpp_submit.go:56; a nil channel blocks for ever, a closed one panics
    match s.entering[i]? with
    | some (some g) =>
      match s.chans[g]? with
      | some c =>
        if c.closed then { s with entering := s.entering.eraseIdx i, panicked := s.panicked + 1 }
        else if c.cnt < c.cap then
          { s with entering := s.entering.eraseIdx i, running := s.running + 1,
                   chans := s.chans.set g { c with cnt := c.cnt + 1 } }
        else s
      | none => s
    | _ => s
  | .finish => if 0 < s.running then { s with running := s.running - 1, leaving := s.leaving ++ [s.cur] } else s
  | .receive i => -- cmpp_submit.go:57; a nil channel blocks for ever, a closed empty one does not block
    match s.leaving[i]? with
    | some (some g) =>
      match s.chans[g]? with
      | some c =>
        if 0 < c.cnt then
          { s with leaving := s.leaving.eraseIdx i, ended := s.ended + 1,
                   chans := s.chans.set g { c with cnt := c.cnt - 1 } }
        else if c.closed then { s with leaving := s.leaving.eraseIdx i, ended := s.ended + 1 }
        else s
      | none => s
    | _ => s
  | .handoff i j => -- a send meets a receive on an unbuffered channel
    match s.entering[i]?, s.leaving[j]? with
    | some (some g), some (some g') =>
      match s.chans[g]? with
      | some c =>
        if g = g' ∧ c.cap = 0 ∧ c.closed = false then
          { s with entering := s.entering.eraseIdx i, running := s.running + 1, leaving := s.leaving.eraseIdx j,
                   ended := s.ended + 1 }
        else s
      | none => s
    | _, _ => s

/-- A history of msc_server/server/session.go:72-84, 98-112 and cmpp_submit.go:56-57. -/
def run (steps : List Step) : State := steps.foldl step {}

end Gosms.Window
