import Verif.Model.Client

/-!
# The client's caches with every access to them a step of its own

msc_client/session/on_traffic_cmpp.go:14-34, 78-94, 117-123 (the same in on_traffic_smgp.go:14-34, 79-95, 118-124 and on_traffic_sgip.go:13-33, 62-79)
and msc_client/session_factory.go:224-260. In Model/Client sending a message, recording an answer and cleaning a cache are one step each; here
the goroutines that send, the receivers of the sessions and the cleaner take turns between any two accesses to the maps and the results. An access to a
map is one step (`sync.Map`), and so is an assignment to a field of a result.

The caller's goroutine writes a packet to the connection before it stores the result of the packet, so that the carrier's answer may come first. Results
are indices into `heap`. Left out: queries (C56, C57), failing writes, and what else the receivers do.
-/

namespace Gosms.ClientRaces
open Gosms.Client (Result Key SyncMap Resp Report)

/-- A goroutine that sends. msc_client/session/on_traffic_cmpp.go:14-34 -/
inductive Sender where
  | idle
  | written (phone : Bytes) (q : UInt64)   -- after on_traffic_cmpp.go:18: the packet is on its way, its result not stored yet
deriving DecidableEq, Repr

/-- The receiver of a session. msc_client/session/on_traffic_cmpp.go:78-94, 117-123 -/
inductive Recv where
  | idle
  | found (i : Nat) (r : Resp)     -- after the `Load` of on_traffic_cmpp.go:86
  | coded (i : Nat) (r : Resp)     -- after 89
  | named (i : Nat) (r : Resp)     -- after 90
  | timed (i : Nat)                -- after 91
  | reported (i : Nat) (r : Report) -- after the `Load` of on_traffic_cmpp.go:118
  | stated (i : Nat)               -- after 121
deriving DecidableEq, Repr

/-- The cleaner: `seqs` tells which of the two maps it cleans. msc_client/session_factory.go:224-260 -/
inductive Cleaner where
  | idle
  | ranging (seqs : Bool) (todo : List Key) (keys : List Key) -- session_factory.go:226-236, 245-255
  | deleting (seqs : Bool) (keys : List Key)                  -- 237-240, 256-259
deriving DecidableEq, Repr

/-- The caches of msc_client/session/send_sms.go:22-26, the results, and where each goroutine is. -/
structure State where
  heap : List Result := []
  seqMap : SyncMap Nat := []
  msgMap : SyncMap Nat := []
  senders : Nat → Sender := fun _ => .idle
  recvs : Nat → Recv := fun _ => .idle
  cleaner : Cleaner := .idle

/-- The accesses to the maps and the results at msc_client/session/on_traffic_cmpp.go:18-31, 78-94, 117-123 and
msc_client/session_factory.go:224-260. -/
inductive Step where
  | write (t : Nat) (phone : Bytes) (q : UInt64)  -- goroutine `t` writes a packet with sequence number `q`
  | store (t : Nat) (now : Int)                   -- and stores its result
  | answer (c : Nat) (r : Resp)                   -- receiver `c` reads an answer and looks up its request
  | report (c : Nat) (r : Report)                 -- receiver `c` reads a report and looks up its message
  | go (c : Nat) (now : Int)                      -- receiver `c` goes on
  | clean (seqs : Bool) (order : List Key)        -- the cleaner begins; `order` is the order in which `Range` visits the keys
  | visit (d now : Int)                           -- it looks at the next entry
  | delete                                        -- it deletes the next key
deriving DecidableEq, Repr

/-- A table with one entry changed: where one goroutine of msc_client/session/on_traffic_cmpp.go:14-34 is (no code of its own).
-/
def setAt {α : Type} (f : Nat → α) (i : Nat) (x : α) : Nat → α := fun j => if j = i then x else f j

/-- session_factory.go:224-260: the key under which an expired result is to be deleted is read from the result. -/
def keyOf (seqs : Bool) (r : Result) : Key := if seqs then .u64 r.sequenceId else .str r.msgId

/-- What the receiver does next: on_traffic_cmpp.go:89-93, 121-122. The message id under which the result is stored is read from the result. -/
def go (s : State) (c : Nat) (now : Int) : State :=
  match s.recvs c with
  | .idle => s
  | .found i r => { s with heap := s.heap.modify i fun x => { x with result := r.code }, recvs := setAt s.recvs c (.coded i r) }
  | .coded i r => { s with heap := s.heap.modify i fun x => { x with msgId := r.msgId }, recvs := setAt s.recvs c (.named i r) }
  | .named i _ => { s with heap := s.heap.modify i fun x => { x with responseTime := now }, recvs := setAt s.recvs c (.timed i) }
  | .timed i => { s with msgMap := match s.heap[i]? with | some x => s.msgMap.store (.str x.msgId) i | none => s.msgMap,
                         recvs := setAt s.recvs c .idle }
  | .reported i r => { s with heap := s.heap.modify i fun x => { x with report := r.stat }, recvs := setAt s.recvs c (.stated i) }
  | .stated i => { s with heap := s.heap.modify i fun x => { x with reportTime := now }, recvs := setAt s.recvs c .idle }

/-- The cleaner looks at the next entry (session_factory.go:226-236, 245-255), or, when all are done, goes on to the deleting. -/
def visit (s : State) (d now : Int) : State :=
  match s.cleaner with
  | .ranging seqs (k :: todo) keys =>
    match (if seqs then s.seqMap else s.msgMap).load k with
    | none => { s with cleaner := .ranging seqs todo keys }
    | some i =>
      match s.heap[i]? with
      | none => { s with cleaner := .ranging seqs todo keys }
      | some x => { s with cleaner := .ranging seqs todo (if x.sendTime + d < now then keys ++ [keyOf seqs x] else keys) }
  | .ranging seqs [] keys => { s with cleaner := .deleting seqs keys }
  | _ => s

/-- msc_client/session/on_traffic_cmpp.go:18-31, 78-94, 117-123 (the same in the others), msc_client/session_factory.go:224-260
-/
def step (s : State) : Step → State
  | .write t phone q =>
    match s.senders t with
    | .idle => { s with senders := setAt s.senders t (.written phone q) }
    | .written _ _ => s
  | .store t now =>
    match s.senders t with
    | .idle => s
    | .written phone q =>
      { s with heap := s.heap ++ [{ phone := phone, sequenceId := q, sendTime := now }],
               seqMap := s.seqMap.store (.u64 q) s.heap.length, senders := setAt s.senders t .idle }
  | .answer c r =>
    match s.recvs c with
    | .idle => match s.seqMap.load r.key with
      | none => s
      | some i => { s with recvs := setAt s.recvs c (.found i r) }
    | _ => s
  | .report c r =>
    match s.recvs c with
    | .idle => match s.msgMap.load (.str r.msgId) with
      | none => s
      | some i => { s with recvs := setAt s.recvs c (.reported i r) }
    | _ => s
  | .go c now => go s c now
  | .clean seqs order => match s.cleaner with
    | .idle => { s with cleaner := .ranging seqs order [] }
    | _ => s
  | .visit d now => visit s d now
  | .delete => match s.cleaner with
    | .deleting true (k :: keys) => { s with seqMap := s.seqMap.delete k, cleaner := .deleting true keys }
    | .deleting false (k :: keys) => { s with msgMap := s.msgMap.delete k, cleaner := .deleting false keys }
    | .deleting _ [] => { s with cleaner := .idle }
    | _ => s

/-- A schedule of the goroutines in msc_client/session/on_traffic_cmpp.go:14-34, 78-123 and
msc_client/session_factory.go:224-260. -/
def run (steps : List Step) : State := steps.foldl step {}

end Gosms.ClientRaces
