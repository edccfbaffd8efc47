import Verif.Model.Smgp
import Verif.Model.Sgip

/-!
# The client: results of sent messages and the three caches

msc_client/api.go, msc_client/session/send_sms.go, the submit response and report branches of
msc_client/session/on_traffic_*.go and the cleaning functions of msc_client/session_factory.go. A `*Result` is an
index into `heap`, so that all holders see the same object. A `sync.Map` is a list of pairs with distinct keys;
its keys are of type `any`, and keys of different dynamic type are different. Steps are atomic and interleave in
any order; one `SendN` call consists of one `send` step per number and a `save` step.
-/

namespace Gosms.Client

/-- msc_client/session/send_sms.go:10-20 `Result`; times in nanoseconds, 0 is the zero time. -/
structure Result where
  queryId : Int := 0
  phone : Bytes := []
  sequenceId : UInt64 := 0
  result : UInt32 := 0
  msgId : Bytes := []
  report : Bytes := []
  sendTime : Int := 0
  responseTime : Int := 0
  reportTime : Int := 0
deriving DecidableEq, Repr

/-- Keys of a `sync.Map`: values of type `any`. The maps of msc_client/session/send_sms.go:22-26 and
msc_client/session_factory.go:27. -/
inductive Key where
  | u32 (x : UInt32)
  | u64 (x : UInt64)
  | i64 (x : Int)
  | str (s : Bytes)
deriving DecidableEq, Repr

/-- `sync.Map`. The maps of msc_client/session/send_sms.go:22-26 and msc_client/session_factory.go:27. -/
abbrev SyncMap (α : Type) := List (Key × α)

namespace SyncMap
variable {α : Type}
/-- `Load`. Of Go's `sync.Map`, as used at msc_client/api.go:43, msc_client/session/on_traffic_cmpp.go:86. -/
def load (m : SyncMap α) (k : Key) : Option α := List.lookup k m
/-- `Delete`. Of Go's `sync.Map`, as used at msc_client/session_factory.go:216, 239, 258. -/
def delete (m : SyncMap α) (k : Key) : SyncMap α := m.filter fun p => p.1 ≠ k
/-- `Store`. Of Go's `sync.Map`, as used at msc_client/api.go:61, msc_client/session/on_traffic_cmpp.go:31. -/
def store (m : SyncMap α) (k : Key) (v : α) : SyncMap α := (k, v) :: m.delete k
end SyncMap

/-- `heap`: all results. `seqMap`: `SequenceIdResultCacheMap`, `msgMap`: `MsgIdResultCacheMap` (send_sms.go:22-26),
`queries`: `resultQueryCacheMap` (session_factory.go:27). `pending c`: results gathered so far by the `c`-th call
of `SendN`. `handed`: batches given to the expiry handler. -/
structure State where
  heap : List Result := []
  seqMap : SyncMap Nat := []
  msgMap : SyncMap Nat := []
  queries : SyncMap (List Nat) := []
  pending : Nat → List Nat := fun _ => []
  handed : List (List Nat) := []

/-- A decoded submit response: CMPP (on_traffic_cmpp.go:78-94), SMGP (on_traffic_smgp.go:79-95), SGIP
(on_traffic_sgip.go:62-79; the three words of the sequence number). -/
inductive Resp where
  | cmpp (seq : UInt32) (msgId : UInt64) (result : UInt32)
  | smgp (seq : UInt32) (msgId : Bytes) (status : UInt32)
  | sgip (s0 s1 s2 : UInt32) (status : UInt8)
deriving DecidableEq, Repr

/-- A decoded report: the message id as text and the status. CMPP: `Uint64HexString` (on_traffic_cmpp.go:117), SMGP:
`hex.EncodeToString` (on_traffic_smgp.go:118). -/
inductive Report where
  | cmpp (msgId : UInt64) (stat : Bytes)
  | smgp (msgId : Bytes) (stat : Bytes)
deriving DecidableEq, Repr

/-- `fmt.Sprintf("%010d", x)` for 32 bits. Used at codec/sgip/header.go:63. -/
def dec10 (x : UInt32) : Bytes := (List.range 10).map fun i => UInt8.ofNat (48 + x.toNat / 10 ^ (9 - i) % 10)

/-- codec/sgip/header.go:62-64 `Sequence2String` -/
def sequence2String (s0 s1 s2 : UInt32) : Bytes := dec10 s0 ++ dec10 s1 ++ uint32HexString s2

/-- codec/sgip/header.go:58-60 `Sequence2Uint64` -/
def sequence2Uint64 (s1 s2 : UInt32) : UInt64 := (s1.toUInt64 <<< 32) ||| s2.toUInt64

/-- The key under which the response's request is looked up: `Load(sub.SequenceId)`, a `uint32`
(on_traffic_cmpp.go:86, on_traffic_smgp.go:87); `Load(sub.Sequence2Uint64())`, a `uint64`
(on_traffic_sgip.go:70). -/
def Resp.key : Resp → Key
  | .cmpp seq _ _ => .u32 seq
  | .smgp seq _ _ => .u32 seq
  | .sgip _ s1 s2 _ => .u64 (sequence2Uint64 s1 s2)

/-- The result of a response: msc_client/session/on_traffic_cmpp.go:78-94, on_traffic_smgp.go:79-95, on_traffic_sgip.go:62-79.
-/
def Resp.code : Resp → UInt32
  | .cmpp _ _ r => r
  | .smgp _ _ s => s
  | .sgip _ _ _ s => s.toUInt32

/-- The message id recorded with a response: msc_client/session/on_traffic_cmpp.go:78-94, on_traffic_smgp.go:79-95,
on_traffic_sgip.go:62-79. -/
def Resp.msgId : Resp → Bytes
  | .cmpp _ m _ => uint64HexString m
  | .smgp _ m _ => Smgp.hexBytes m
  | .sgip s0 s1 s2 _ => sequence2String s0 s1 s2

/-- The message id of a report as the key it is looked up with: msc_client/session/on_traffic_cmpp.go:117,
on_traffic_smgp.go:118. -/
def Report.msgId : Report → Bytes
  | .cmpp m _ => uint64HexString m
  | .smgp m _ => Smgp.hexBytes m

/-- The status of a report: msc_client/session/on_traffic_cmpp.go:117-123, on_traffic_smgp.go:118-124. -/
def Report.stat : Report → Bytes
  | .cmpp _ s => s
  | .smgp _ s => s

/-- What happens to the results and the caches: `send`, `save`: msc_client/api.go:28-38; `resp`, `report`:
msc_client/session/on_traffic_cmpp.go:78-123 and the same in the others; the cleaning functions:
msc_client/session_factory.go:187-260. -/
inductive Step where
  | send (call : Nat) (phone : Bytes) (seqs : List UInt64) (ok : Bool) (now : Int)
  | save (call : Nat) (id : Int)
  | resp (r : Resp) (now : Int)
  | report (r : Report) (now : Int)
  | cleanQueries (order : List Key) (handler : Bool) (d now : Int)
  | cleanSeqs (d now : Int)
  | cleanMsgs (d now : Int)
deriving DecidableEq, Repr

/-- msc_client/session/on_traffic_cmpp.go:16-33 (the same in the others): one result per packet written, stored under
its sequence number as `uint64`. `seqs` are the sequence numbers of the packets written; `ok` is false if
writing the next one failed: then the caller gets nothing. -/
def sendPackets (s : State) (phone : Bytes) (now : Int) : List UInt64 → State
  | [] => s
  | q :: qs =>
    sendPackets { s with heap := s.heap ++ [{ phone := phone, sequenceId := q, sendTime := now }],
                         seqMap := s.seqMap.store (.u64 q) s.heap.length } phone now qs

/-- msc_client/api.go:28-37: the results of one number join those of the call. -/
def onSend (s : State) (call : Nat) (phone : Bytes) (seqs : List UInt64) (ok : Bool) (now : Int) : State :=
  let s' := sendPackets s phone now seqs
  if ok then
    { s' with pending := fun c => if c = call then s.pending c ++ List.range' s.heap.length seqs.length else s.pending c }
  else s'

/-- msc_client/api.go:56-62 `saveQueryCache` -/
def onSave (s : State) (call : Nat) (id : Int) : State :=
  { s with heap := s.heap.mapIdx fun i r => if i ∈ s.pending call then { r with queryId := id } else r,
           queries := s.queries.store (.i64 id) (s.pending call),
           pending := fun c => if c = call then [] else s.pending c }

/-- The submit response branches, on_traffic_cmpp.go:86-94. -/
def onResp (s : State) (r : Resp) (now : Int) : State :=
  match s.seqMap.load r.key with
  | none => s
  | some i =>
    { s with heap := s.heap.modify i fun x => { x with result := r.code, msgId := r.msgId, responseTime := now },
             msgMap := s.msgMap.store (.str r.msgId) i }

/-- The report branches, on_traffic_cmpp.go:117-123. -/
def onReport (s : State) (r : Report) (now : Int) : State :=
  match s.msgMap.load (.str r.msgId) with
  | none => s
  | some i => { s with heap := s.heap.modify i fun x => { x with report := r.stat, reportTime := now } }

/-- `SendTime.Add(d).Before(now)` of the result at index `i`. msc_client/session_factory.go:202, 232, 251 -/
def expired (heap : List Result) (d now : Int) (i : Nat) : Bool :=
  match heap[i]? with
  | some r => r.sendTime + d < now
  | none => false

/-- The test of session_factory.go:193-207 for one entry: no results, or the first one has expired. -/
def entryExpired (heap : List Result) (d now : Int) (results : List Nat) : Bool :=
  match results with
  | [] => true
  | i :: _ => expired heap d now i

/-- msc_client/session_factory.go:189-213: the body of `Range`, entry by entry. State: expired keys, batch, batches
handed over. -/
def cleanLoop (heap : List Result) (handler : Bool) (d now : Int) :
    List (Key × List Nat) → List Key × List Nat × List (List Nat) → List Key × List Nat × List (List Nat)
  | [], acc => acc
  | (k, results) :: rest, (keys, batch, out) =>
    let keys := if entryExpired heap d now results then keys ++ [k] else keys
    let batch := if entryExpired heap d now results then batch ++ results else batch
    if handler = true ∧ batch.length ≥ 64 then cleanLoop heap handler d now rest (keys, [], out ++ [batch])
    else cleanLoop heap handler d now rest (keys, batch, out)

/-- msc_client/session_factory.go:187-222 `cleanQueryCacheMap`: the expired keys and the batches. `entries` is what
`Range` visits, in its order. -/
def cleanQueryCacheMap (heap : List Result) (handler : Bool) (d now : Int) (entries : List (Key × List Nat)) :
    List Key × List (List Nat) :=
  let (keys, batch, out) := cleanLoop heap handler d now entries ([], [], [])
  (keys, if handler = true ∧ batch.length > 0 then out ++ [batch] else out)

/-- The entries of a map in the order in which `Range` visits its keys. Go's `sync.Map.Range`, as used at
msc_client/session_factory.go:190. -/
def visit {α : Type} (m : SyncMap α) (order : List Key) : List (Key × α) :=
  order.filterMap fun k => (m.load k).map fun v => (k, v)

/-- `Delete` for each of some keys. msc_client/session_factory.go:214-217, 237-240, 256-259 -/
def deleteAll {α : Type} (m : SyncMap α) (keys : List Key) : SyncMap α := keys.foldl SyncMap.delete m

/-- One step. `cleanSeqs` and `cleanMsgs`: session_factory.go:224-241, 243-260; they delete the key that the expired
result holds now. -/
def step (s : State) : Step → State
  | .send call phone seqs ok now => onSend s call phone seqs ok now
  | .save call id => onSave s call id
  | .resp r now => onResp s r now
  | .report r now => onReport s r now
  | .cleanQueries order handler d now =>
    let (keys, batches) := cleanQueryCacheMap s.heap handler d now (visit s.queries order)
    { s with queries := deleteAll s.queries keys, handed := s.handed ++ batches }
  | .cleanSeqs d now =>
    { s with seqMap := deleteAll s.seqMap (s.seqMap.filterMap fun p =>
        if expired s.heap d now p.2 then (s.heap[p.2]?).map fun r => .u64 r.sequenceId else none) }
  | .cleanMsgs d now =>
    { s with msgMap := deleteAll s.msgMap (s.msgMap.filterMap fun p =>
        if expired s.heap d now p.2 then (s.heap[p.2]?).map fun r => .str r.msgId else none) }

/-- A history of calls of msc_client/api.go:21-40 and of what msc_client/session_factory.go:164-185 and the receivers do. -/
def run (steps : List Step) : State := steps.foldl step {}

/-- msc_client/api.go:42-54 `Query`: `panic` for `result[0]` of an empty slice. -/
inductive QueryResult where
  | panic
  | nil
  | results (l : List Nat)
deriving DecidableEq, Repr

/-- msc_client/api.go:42-54 `Query` -/
def query (s : State) (id : Int) : QueryResult :=
  match s.queries.load (.i64 id) with
  | none => .nil
  | some [] => .panic
  | some l => .results l

end Gosms.Client
