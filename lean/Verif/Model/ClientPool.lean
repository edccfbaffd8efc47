import Verif.Go.Bytes

/-!
# The client's session factories and pools

msc_client/session_factory.go and the counters of msc_client/session/session.go. A session is its number, whether its
health check would succeed now, and its counter for the period. `sort.Sort` is any permutation that is
sorted by `Less`. The regular expression engine is a parameter.
-/

namespace Gosms.ClientPool

/-- msc_client/session/session.go:19-31: the fields that matter here. -/
structure Sess where
  id : Nat
  healthy : Bool := true
  period : UInt64 := 0
deriving DecidableEq, Repr

/-- session.go:61-63 `ResetCounter` -/
def Sess.reset (s : Sess) : Sess := { s with period := 0 }

/-- session.go:65-75 `AddCounter`, `AddCounterN` -/
def Sess.addCounterN (s : Sess) (n : UInt64) : Sess := { s with period := s.period + n }

/-- session.go:78-84 `LruPriority` -/
def Sess.priority (s : Sess) : UInt64 := if s.healthy = false then 0 else 10000000000 - s.period

/-- session_factory.go:320-328 `Less`, for indices in range. -/
def less (a b : Sess) : Bool := a.priority > b.priority

/-- What `sort.Sort` promises of its result. Used at msc_client/session_factory.go:290, with lines 316-332. -/
def SortedOf (pool sorted : List Sess) : Prop :=
  sorted.Perm pool ∧ sorted.Pairwise fun a b => less b a = false

/-- session_factory.go:289-300: after the sort, keep the healthy sessions and reset their counters. -/
def prune (sorted : List Sess) : List Sess := (sorted.filter fun s => s.healthy).map Sess.reset

/-- session_factory.go:281-285: the number of sessions wanted. -/
def wanted (maxConns : Int) : Nat := if maxConns ≤ 0 then 2 else maxConns.toNat

/-- session_factory.go:303-314, 334-347: connect while the pool is too small. One entry per attempt: the new session,
or none if dialing or the login failed. The list ends when the shutdown signal arrives. -/
def fill (want : Nat) (pool : List Sess) : List (Option Nat) → List Sess
  | [] => pool
  | r :: rs =>
    if pool.length < want then fill want (pool ++ (r.map fun i => { id := i : Sess }).toList) rs else pool

/-- What happens to a pool. `breaks`: a session becomes unhealthy; `sent`: `AddCounterN`; `tick`: one run of `lruSort` with the
configured number of connections, the result of the sort and those of the connection attempts. What happens to sessions while a
tick connects is ordered after the tick. msc_client/session_factory.go:281-314, msc_client/session/session.go:69-75 -/
inductive Event where
  | breaks (i : Nat)
  | sent (i : Nat) (n : UInt64)
  | tick (maxConns : Int) (sorted : List Sess) (dials : List (Option Nat))
deriving DecidableEq, Repr

/-- One event; the sort result must be one that `sort.Sort` allows. msc_client/session_factory.go:290 -/
def Event.Valid (pool : List Sess) : Event → Prop
  | .tick _ sorted _ => SortedOf pool sorted
  | _ => True

/-- msc_client/session_factory.go:281-314 `lruSort`, msc_client/session/session.go:69-75 `AddCounterN` -/
def step (pool : List Sess) : Event → List Sess
  | .breaks i => pool.modify i fun s => { s with healthy := false }
  | .sent i n => pool.modify i (·.addCounterN n)
  | .tick maxConns sorted dials => fill (wanted maxConns) (prune sorted) dials

/-- session_factory.go:97-112: the first connection, made when the factory is created. -/
def initial (first : Option Nat) : List Sess := (first.map fun i => { id := i : Sess }).toList

/-- A history of a pool, with the pool it leads to. msc_client/session_factory.go:262-314 -/
inductive Run (first : Option Nat) : List Event → List Sess → Prop
  | nil : Run first [] (initial first)
  | snoc {es pool e} : Run first es pool → e.Valid pool → Run first (es ++ [e]) (step pool e)

/-! ## PeekSession -/

/-- What `PeekSession` sees: at its `k`-th look the pool `pool k` (a nil session is `none`), and right after it the health
`healthy k` of a session. msc_client/session_factory.go:144-161 -/
structure Env where
  pool : Nat → List (Option Nat)
  healthy : Nat → Nat → Bool

/-- `HealthCheck` of a possibly nil session, session.go:263-264. -/
def healthCheck (env : Env) (k : Nat) : Option Nat → Bool
  | none => false
  | some i => env.healthy k i

/-- session_factory.go:157-159: take the head of the pool, if any. -/
def look (ret : Option Nat) : List (Option Nat) → Option Nat
  | [] => ret
  | s :: _ => s

/-- session_factory.go:154-160: the loop, with look `k` next and `n` looks left to observe; `none`: still looping. -/
def peekLoop (env : Env) : Nat → Nat → Option Nat → Option Nat
  | 0, _, _ => none
  | n + 1, k, ret =>
    if healthCheck env k (look ret (env.pool k)) then look ret (env.pool k)
    else peekLoop env n (k + 1) (look ret (env.pool k))

/-- msc_client/session_factory.go:144-161 `PeekSession`: it returned nil or a session, or is still waiting. -/
inductive Peek where
  | nil
  | session (i : Nat)
  | waiting
deriving DecidableEq, Repr

/-- session_factory.go:144-161 `PeekSession`, observed for `n` looks. The test in line 149 asks for a nil session that is
healthy. -/
def peek (env : Env) (allow : Bool) (n : Nat) : Peek :=
  if !allow then .nil
  else match (env.pool 0).head? with
    | some none => if healthCheck env 0 none then .nil else loop
    | _ => loop
where
  loop : Peek := match peekLoop env n 1 none with
    | some i => .session i
    | none => .waiting

/-! ## SelectSession -/

/-- session_factory.go:361 `ISPS`, in this order. -/
inductive Isp where
  | cmpp | sgip | smgp
deriving DecidableEq, Repr

/-- The configuration of a carrier, fixed: whether `FindAuthConf` finds the account, and the pattern `segment`.
msc_client/session_factory.go:53-58, 71-95 -/
structure Conf where
  account : Isp → Bool
  segment : Isp → Bytes

/-- A compiled pattern: which numbers it matches (anywhere in the number). Go's `regexp`, as used at
msc_client/session_factory.go:57, 97. -/
abbrev Regex := Bytes → Bool

/-- The factories made so far; the pattern is nil if it did not compile (session_factory.go:91-95). -/
abbrev Factories := Isp → Option (Option Regex)

/-- session_factory.go:71-141 `CreateSessionFactory`, as far as the choice of the carrier is concerned. -/
def create (compile : Bytes → Option Regex) (conf : Conf) (fs : Factories) (i : Isp) : Factories × Option (Option Regex) :=
  match fs i with
  | some f => (fs, some f)
  | none =>
    if conf.account i then
      (fun j => if j = i then some (compile (conf.segment i)) else fs j, some (compile (conf.segment i)))
    else (fs, none)

/-- msc_client/session_factory.go:47-68 `SelectSession`: the goroutine panics, no carrier is found, or one is. -/
inductive Choice where
  | panic
  | none
  | isp (i : Isp)
deriving DecidableEq, Repr

/-- session_factory.go:47-62: the loop of `SelectSession`. -/
def selectLoop (compile : Bytes → Option Regex) (conf : Conf) (phone : Bytes) : List Isp → Factories → Factories × Choice
  | [], fs => (fs, .none)
  | i :: is, fs =>
    match create compile conf fs i with
    | (fs, none) => selectLoop compile conf phone is fs
    | (fs, some none) => (fs, .panic)
    | (fs, some (some re)) => if re phone then (fs, .isp i) else selectLoop compile conf phone is fs

/-- msc_client/session_factory.go:47-68 `SelectSession` up to the choice of the factory. -/
def select (compile : Bytes → Option Regex) (conf : Conf) (fs : Factories) (phone : Bytes) : Factories × Choice :=
  selectLoop compile conf phone [.cmpp, .sgip, .smgp] fs

/-- The factories after selecting sessions for some numbers, one after the other. Calls of msc_client/session_factory.go:47-68
one after the other. -/
def after (compile : Bytes → Option Regex) (conf : Conf) (phones : List Bytes) : Factories :=
  phones.foldl (fun fs p => (select compile conf fs p).1) (fun _ => none)

end Gosms.ClientPool
