import Verif.Props.ClientCache
import Verif.Spec.Client
import Verif.Lemmas.Smgp
import Verif.Props.Utils

/-!
# C55, C56: responses are recorded in the right result; `Query` returns what was sent
-/

namespace Gosms.Client
open SyncMap

theorem run_append (a b : List Step) : run (a ++ b) = b.foldl step (run a) := by
  unfold run; rw [List.foldl_append]

theorem run_snoc (a : List Step) (x : Step) : run (a ++ [x]) = step (run a) x := by
  rw [run_append]; rfl

/-! ## What never changes about a result -/

/-- Same packet: number, sequence number and time. -/
def Same (r r' : Result) : Prop := r'.phone = r.phone ∧ r'.sequenceId = r.sequenceId ∧ r'.sendTime = r.sendTime

theorem heap_step (s : State) (x : Step) (i : Nat) (r : Result) (h : s.heap[i]? = some r) :
    ∃ r', (step s x).heap[i]? = some r' ∧ Same r r' := by
  cases x with
  | send call phone seqs ok now =>
    have e : (step s (.send call phone seqs ok now)).heap = (sendPackets s phone now seqs).heap := by
      simp only [step, onSend]; split <;> rfl
    rw [e, (sendPackets_fields s phone now seqs).1]
    refine ⟨r, ?_, rfl, rfl, rfl⟩
    rw [List.getElem?_append_left]
    · exact h
    · exact (List.getElem?_eq_some_iff.1 h).1
  | save call id =>
    simp only [step, onSave]
    rw [List.getElem?_mapIdx, h]
    refine ⟨_, rfl, ?_⟩
    split <;> exact ⟨rfl, rfl, rfl⟩
  | resp q now =>
    simp only [step, onResp]
    split
    · exact ⟨r, h, rfl, rfl, rfl⟩
    · dsimp only
      rw [List.getElem?_modify, h]
      refine ⟨_, rfl, ?_⟩
      split <;> exact ⟨rfl, rfl, rfl⟩
  | report q now =>
    simp only [step, onReport]
    split
    · exact ⟨r, h, rfl, rfl, rfl⟩
    · dsimp only
      rw [List.getElem?_modify, h]
      refine ⟨_, rfl, ?_⟩
      split <;> exact ⟨rfl, rfl, rfl⟩
  | cleanQueries order handler d now => exact ⟨r, h, rfl, rfl, rfl⟩
  | cleanSeqs d now => exact ⟨r, h, rfl, rfl, rfl⟩
  | cleanMsgs d now => exact ⟨r, h, rfl, rfl, rfl⟩

/-! ## The map of sequence numbers -/

/-- Every entry has a 64 bit key, the sequence number of its result. -/
def SeqOk (s : State) : Prop := ∀ k i, (k, i) ∈ s.seqMap → ∃ r, s.heap[i]? = some r ∧ k = .u64 r.sequenceId

theorem sendPackets_seqOk {s : State} (h : SeqOk s) (phone : Bytes) (now : Int) (qs : List UInt64) :
    SeqOk (sendPackets s phone now qs) := by
  induction qs generalizing s with
  | nil => exact h
  | cons q qs ih =>
    simp only [sendPackets]
    apply ih
    intro k i hk
    dsimp only at hk ⊢
    rcases List.mem_cons.1 hk with hk | hk
    · injection hk with h1 h2
      subst h1; subst h2
      exact ⟨_, by simp; rfl, rfl⟩
    · obtain ⟨r, h1, h2⟩ := h k i (mem_delete hk)
      refine ⟨r, ?_, h2⟩
      rw [List.getElem?_append_left (List.getElem?_eq_some_iff.1 h1).1]
      exact h1

theorem seqOk_step {s : State} (h : SeqOk s) (x : Step) : SeqOk (step s x) := by
  have carry : ∀ m : SyncMap Nat, (∀ p ∈ m, p ∈ s.seqMap) → (step s x).seqMap = m → SeqOk (step s x) := by
    intro m hm e k i hk
    rw [e] at hk
    obtain ⟨r, h1, h2⟩ := h k i (hm _ hk)
    obtain ⟨r', h3, h4⟩ := heap_step s x i r h1
    exact ⟨r', h3, by rw [h2, h4.2.1]⟩
  cases x with
  | send call phone seqs ok now =>
    have := sendPackets_seqOk h phone now seqs
    simp only [step, onSend]
    split
    · exact this
    · exact this
  | save call id => exact carry _ (fun p hp => hp) rfl
  | resp q now =>
    apply carry s.seqMap (fun p hp => hp)
    simp only [step, onResp]; split <;> rfl
  | report q now =>
    apply carry s.seqMap (fun p hp => hp)
    simp only [step, onReport]; split <;> rfl
  | cleanQueries order handler d now => exact carry _ (fun p hp => hp) rfl
  | cleanSeqs d now => exact carry _ (fun p hp => mem_deleteAll hp) rfl
  | cleanMsgs d now => exact carry _ (fun p hp => hp) rfl

theorem seqOk_run (steps : List Step) : SeqOk (run steps) := by
  induction steps using snoc_induction with
  | nil => intro k i hk; simp [run] at hk
  | snoc steps x ih => rw [run_snoc]; exact seqOk_step ih x

/-- C55 for CMPP and SMGP fails in every history: the response to a submit is looked up with a 32 bit key, which
is never there. No response of a CMPP or SMGP carrier ever changes anything. -/
theorem response_recorded_cmpp_smgp_fails (steps : List Step) (now : Int) (seq : UInt32) :
    (∀ m c, run (steps ++ [.resp (.cmpp seq m c) now]) = run steps) ∧
    (∀ m c, run (steps ++ [.resp (.smgp seq m c) now]) = run steps) := by
  have key : (run steps).seqMap.load (.u32 seq) = none := by
    cases hl : (run steps).seqMap.load (.u32 seq) with
    | none => rfl
    | some i =>
      obtain ⟨r, _, h⟩ := seqOk_run steps _ _ (mem_of_load hl)
      cases h
  constructor <;> intro m c <;> rw [run_snoc] <;> simp only [step, onResp, Resp.key, key]

/-- Hence a client of CMPP and SMGP carriers sees, whatever the carriers answer and report, result 0 (success), no
message id, no report and no response time for everything it ever sent. -/
theorem results_never_updated (steps : List Step) (h : ∀ x ∈ steps, ¬ Spec.sgipResp x) :
    (run steps).msgMap = [] ∧
    ∀ r ∈ (run steps).heap, r.result = 0 ∧ r.msgId = [] ∧ r.report = [] ∧ r.responseTime = 0 ∧ r.reportTime = 0 := by
  induction steps using snoc_induction with
  | nil => simp [run]
  | snoc steps x ih =>
    obtain ⟨hm, hr⟩ := ih fun y hy => h y (by simp [hy])
    have hx := h x (by simp)
    cases x with
    | send call phone seqs ok now =>
      rw [run_snoc]
      have e : (step (run steps) (.send call phone seqs ok now)).heap = (sendPackets (run steps) phone now seqs).heap ∧
          (step (run steps) (.send call phone seqs ok now)).msgMap = (sendPackets (run steps) phone now seqs).msgMap := by
        simp only [step, onSend]; split <;> exact ⟨rfl, rfl⟩
      obtain ⟨f1, _, _, _, f5⟩ := sendPackets_fields (run steps) phone now seqs
      rw [e.1, e.2, f1, f5]
      refine ⟨hm, ?_⟩
      intro r hr'
      rcases List.mem_append.1 hr' with hr' | hr'
      · exact hr r hr'
      · obtain ⟨q, _, rfl⟩ := List.mem_map.1 hr'
        exact ⟨rfl, rfl, rfl, rfl, rfl⟩
    | save call id =>
      rw [run_snoc]
      refine ⟨hm, ?_⟩
      intro r hr'
      simp only [step, onSave] at hr'
      obtain ⟨i, hi, rfl⟩ := List.mem_mapIdx.1 hr'
      have := hr _ (List.getElem_mem hi)
      split
      · exact this
      · exact this
    | resp q now =>
      cases q with
      | cmpp seq m c => rw [(response_recorded_cmpp_smgp_fails steps now seq).1]; exact ⟨hm, hr⟩
      | smgp seq m c => rw [(response_recorded_cmpp_smgp_fails steps now seq).2]; exact ⟨hm, hr⟩
      | sgip => exact absurd trivial hx
    | report q now =>
      rw [run_snoc]
      have e : step (run steps) (.report q now) = run steps := by simp only [step, onReport, hm, load_nil]
      rw [e]
      exact ⟨hm, hr⟩
    | cleanQueries order handler d now => rw [run_snoc]; exact ⟨hm, hr⟩
    | cleanSeqs d now => rw [run_snoc]; exact ⟨hm, hr⟩
    | cleanMsgs d now =>
      rw [run_snoc]
      refine ⟨?_, hr⟩
      simp only [step, hm]
      rfl

/-- The message of sequence number 7 is refused by the carrier with code 8, and the client reports success. -/
example : (run [.send 0 [49] [7] true 0, .save 0 100, .resp (.cmpp 7 99 8) 1]).heap =
    [{ queryId := 100, phone := [49], sequenceId := 7 }] := by decide

theorem sendPackets_distinct {s : State} (h : Distinct s.seqMap) (phone : Bytes) (now : Int) (qs : List UInt64) :
    Distinct (sendPackets s phone now qs).seqMap := by
  induction qs generalizing s with
  | nil => exact h
  | cons q qs ih => simp only [sendPackets]; exact ih (h.store _ _)

theorem distinct_run (steps : List Step) : Distinct (run steps).seqMap := by
  induction steps using snoc_induction with
  | nil => simp [run, Distinct]
  | snoc steps x ih =>
    rw [run_snoc]
    cases x with
    | send call phone seqs ok now =>
      have e : (step (run steps) (.send call phone seqs ok now)).seqMap =
          (sendPackets (run steps) phone now seqs).seqMap := by
        simp only [step, onSend]; split <;> rfl
      rw [e]
      exact sendPackets_distinct ih phone now seqs
    | save call id => exact ih
    | resp q now => simp only [step, onResp]; split <;> exact ih
    | report q now => simp only [step, onReport]; split <;> exact ih
    | cleanQueries order handler d now => exact ih
    | cleanSeqs d now => exact ih.deleteAll _
    | cleanMsgs d now => exact ih

theorem sendPackets_load (s : State) (phone : Bytes) (now : Int) (qs : List UInt64) (q : UInt64) (h : q ∉ qs) :
    (sendPackets s phone now qs).seqMap.load (.u64 q) = s.seqMap.load (.u64 q) := by
  induction qs generalizing s with
  | nil => rfl
  | cons a qs ih =>
    rw [List.mem_cons, not_or] at h
    simp only [sendPackets]
    rw [ih _ h.2, load_store, if_neg]
    intro he
    injection he with he
    exact h.1 he

theorem sendPackets_append (s : State) (phone : Bytes) (now : Int) (a b : List UInt64) :
    sendPackets s phone now (a ++ b) = sendPackets (sendPackets s phone now a) phone now b := by
  induction a generalizing s with
  | nil => rfl
  | cons q a ih => simp only [List.cons_append, sendPackets]; rw [ih]

/-- The request with sequence number `q` is known, as result `i`. -/
structure Known (s : State) (q : UInt64) (i : Nat) (phone : Bytes) (t : Int) : Prop where
  load : s.seqMap.load (.u64 q) = some i
  res : ∃ r, s.heap[i]? = some r ∧ r.phone = phone ∧ r.sequenceId = q ∧ r.sendTime = t

theorem known_step {s : State} (hs : SeqOk s) (hdis : Distinct s.seqMap) {q : UInt64} {i : Nat} {phone : Bytes} {t : Int} (h : Known s q i phone t)
    (x : Step) (h1 : ¬ Spec.sends q x) (h2 : ¬ Spec.dropsSeq t x) : Known (step s x) q i phone t := by
  obtain ⟨r, hr, hp, hq, ht⟩ := h.res
  obtain ⟨r', hr', h3, h4, h5⟩ := heap_step s x i r hr
  refine ⟨?_, r', hr', by rw [h3, hp], by rw [h4, hq], by rw [h5, ht]⟩
  cases x with
  | send call phone' seqs ok now =>
    have e : (step s (.send call phone' seqs ok now)).seqMap = (sendPackets s phone' now seqs).seqMap := by
      simp only [step, onSend]; split <;> rfl
    rw [e, sendPackets_load _ _ _ _ _ h1]
    exact h.load
  | save call id => exact h.load
  | resp a now => simp only [step, onResp]; split <;> exact h.load
  | report a now => simp only [step, onReport]; split <;> exact h.load
  | cleanQueries order handler d now => exact h.load
  | cleanSeqs d now =>
    simp only [step, load_deleteAll]
    rw [if_neg, h.load]
    intro hm
    obtain ⟨⟨k, j⟩, hkj, hx⟩ := List.mem_filterMap.1 hm
    obtain ⟨r2, hr2, hk⟩ := hs k j hkj
    dsimp only at hx
    split at hx
    · rename_i hexp
      rw [hr2] at hx
      injection hx with hx
      injection hx with hx
      -- the expired result has the same sequence number, so it is the same entry
      unfold expired at hexp
      rw [hr2] at hexp
      simp only [decide_eq_true_eq] at hexp
      have hji := load_of_mem hdis hkj
      rw [hk, hx, h.load] at hji
      injection hji with hji
      subst hji
      rw [hr] at hr2
      injection hr2 with hr2
      subst hr2
      rw [ht] at hexp
      exact h2 hexp
    · cases hx
  | cleanMsgs d now => exact h.load

theorem known_run (pre post : List Step) {q : UInt64} {i : Nat} {phone : Bytes} {t : Int}
    (h : Known (run pre) q i phone t) (h1 : ∀ x ∈ post, ¬ Spec.sends q x) (h2 : ∀ x ∈ post, ¬ Spec.dropsSeq t x) :
    Known (run (pre ++ post)) q i phone t := by
  induction post using snoc_induction with
  | nil => simpa using h
  | snoc post x ih =>
    rw [← List.append_assoc, run_snoc]
    exact known_step (seqOk_run _) (distinct_run _)
      (ih (fun y hy => h1 y (by simp [hy])) fun y hy => h2 y (by simp [hy])) x (h1 x (by simp)) (h2 x (by simp))

theorem known_sent (pre : List Step) (call : Nat) (phone : Bytes) (qs1 qs2 : List UInt64) (q : UInt64) (ok : Bool) (t : Int)
    (h : q ∉ qs2) :
    Known (run (pre ++ [.send call phone (qs1 ++ q :: qs2) ok t])) q ((run pre).heap.length + qs1.length) phone t := by
  rw [run_snoc]
  have e : (step (run pre) (.send call phone (qs1 ++ q :: qs2) ok t)).seqMap =
        (sendPackets (run pre) phone t (qs1 ++ q :: qs2)).seqMap ∧
      (step (run pre) (.send call phone (qs1 ++ q :: qs2) ok t)).heap =
        (sendPackets (run pre) phone t (qs1 ++ q :: qs2)).heap := by
    simp only [step, onSend]; split <;> exact ⟨rfl, rfl⟩
  constructor
  · rw [e.1, sendPackets_append]
    simp only [sendPackets]
    rw [sendPackets_load _ _ _ _ _ h, load_store, if_pos rfl, (sendPackets_fields _ _ _ _).1]
    simp
  · rw [e.2, (sendPackets_fields _ _ _ _).1]
    refine ⟨{ phone := phone, sequenceId := q, sendTime := t }, ?_, rfl, rfl, rfl⟩
    rw [List.getElem?_append_right (by omega)]
    simp

/-- C55 for SGIP, in every history: a packet with sequence number `q` was sent, to `phone`; since then `q` was not
used again and the packet did not outlive the limit at a cleaning. When a response with this sequence number
arrives, its status, message id and time are recorded in the result of this packet, and nothing else changes in any
result. -/
theorem response_recorded_sgip_partial (pre post : List Step) (call : Nat) (phone : Bytes) (qs1 qs2 : List UInt64)
    (ok : Bool) (t now : Int) (s0 s1 s2 : UInt32) (status : UInt8) (h : sequence2Uint64 s1 s2 ∉ qs2)
    (h1 : ∀ x ∈ post, ¬ Spec.sends (sequence2Uint64 s1 s2) x) (h2 : ∀ x ∈ post, ¬ Spec.dropsSeq t x) :
    let before := pre ++ .send call phone (qs1 ++ sequence2Uint64 s1 s2 :: qs2) ok t :: post
    let i := (run pre).heap.length + qs1.length
    ∃ r, (run before).heap[i]? = some r ∧ r.phone = phone ∧ r.sequenceId = sequence2Uint64 s1 s2 ∧ r.sendTime = t ∧
      (run (before ++ [.resp (.sgip s0 s1 s2 status) now])).heap = (run before).heap.set i
        { r with result := status.toUInt32, msgId := sequence2String s0 s1 s2, responseTime := now } := by
  intro before i
  have k := known_run _ post (known_sent pre call phone qs1 qs2 (sequence2Uint64 s1 s2) ok t h) h1 h2
  rw [List.append_assoc] at k
  change Known (run before) _ i phone t at k
  obtain ⟨r, hr, hp, hq, ht⟩ := k.res
  refine ⟨r, hr, hp, hq, ht, ?_⟩
  rw [run_snoc]
  simp only [step, onResp, Resp.key, k.load, Resp.code, Resp.msgId]
  apply List.ext_getElem?
  intro n
  rw [List.getElem?_modify, List.getElem?_set]
  by_cases hn : i = n
  · subst hn
    have hlt := (List.getElem?_eq_some_iff.1 hr).1
    rw [if_pos rfl, if_pos hlt, hr]
    simp
  · rw [if_neg hn]
    simp only [if_neg hn]
    cases (run before).heap[n]? <;> rfl

theorem sequence2Uint64_toNat (a b : UInt32) : (sequence2Uint64 a b).toNat = a.toNat * 4294967296 + b.toNat := by
  unfold sequence2Uint64
  rw [UInt64.toNat_or, UInt64.toNat_shiftLeft, UInt32.toNat_toUInt64, UInt32.toNat_toUInt64]
  have ha := a.toNat_lt
  have hb := b.toNat_lt
  have e : a.toNat <<< ((32 : UInt64).toNat % 64) % 2 ^ 64 = a.toNat <<< 32 := by
    show a.toNat <<< 32 % 2 ^ 64 = _
    rw [Nat.shiftLeft_eq]
    omega
  rw [e, ← Nat.shiftLeft_add_eq_or_of_lt (by omega), Nat.shiftLeft_eq]

/-- Distinct sequence numbers on the wire have distinct keys, apart from the node number `s0`. -/
theorem sequence2Uint64_inj {a b c d : UInt32} (h : sequence2Uint64 a b = sequence2Uint64 c d) : a = c ∧ b = d := by
  have h' := congrArg UInt64.toNat h
  rw [sequence2Uint64_toNat, sequence2Uint64_toNat] at h'
  have := b.toNat_lt
  have := d.toNat_lt
  constructor
  · apply UInt32.toNat_inj.1; omega
  · apply UInt32.toNat_inj.1; omega

example : (run [.send 0 [49] [sequence2Uint64 1 7, sequence2Uint64 1 8] true 0, .save 0 100,
      .resp (.sgip 3 1 8 0) 5]).heap.map (fun r => (r.sequenceId, r.responseTime)) =
    [(sequence2Uint64 1 7, 0), (sequence2Uint64 1 8, 5)] := by decide

/-! ## Query -/

/-- Number and sequence number of a result. -/
def pkt (s : State) (i : Nat) : Option (Bytes × UInt64) := s.heap[i]?.map fun r => (r.phone, r.sequenceId)

theorem pkt_step {s : State} {i : Nat} {p : Bytes × UInt64} (h : pkt s i = some p) (x : Step) : pkt (step s x) i = some p := by
  unfold pkt at *
  obtain ⟨r, hr, he⟩ := Option.map_eq_some_iff.1 h
  obtain ⟨r', hr', h1, h2, _⟩ := heap_step s x i r hr
  rw [hr', ← he, Option.map_some, h1, h2]

theorem map_pkt_step {s : State} {l : List Nat} {ps : List (Bytes × UInt64)} (h : l.map (pkt s) = ps.map some) (x : Step) :
    l.map (pkt (step s x)) = ps.map some := by
  rw [← h]
  apply List.map_congr_left
  intro i hi
  have : pkt s i ∈ ps.map some := by rw [← h]; exact List.mem_map.2 ⟨i, hi, rfl⟩
  obtain ⟨p, _, hp⟩ := List.mem_map.1 this
  rw [← hp, pkt_step hp.symm]

theorem sent_snoc (c : Nat) (steps : List Step) (x : Step) :
    Spec.sent c (steps ++ [x]) = match x with
      | .send c' phone seqs true _ => if c' = c then Spec.sent c steps ++ seqs.map (fun q => (phone, q)) else Spec.sent c steps
      | .save c' _ => if c' = c then [] else Spec.sent c steps
      | _ => Spec.sent c steps := by
  unfold Spec.sent
  rw [List.foldl_append]
  rfl

theorem pending_run (steps : List Step) (c : Nat) :
    ((run steps).pending c).map (pkt (run steps)) = (Spec.sent c steps).map some := by
  induction steps using snoc_induction with
  | nil => rfl
  | snoc steps x ih =>
    have keep := map_pkt_step ih x
    rw [run_snoc, sent_snoc]
    cases x with
    | send c' phone seqs ok now =>
      cases ok with
      | false =>
        have e : (step (run steps) (.send c' phone seqs false now)).pending = (run steps).pending := by
          simp only [step, onSend, Bool.false_eq_true, if_false]
          exact (sendPackets_fields _ _ _ _).2.1
        rw [e]
        exact keep
      | true =>
        have e : (step (run steps) (.send c' phone seqs true now)).pending c =
            if c = c' then (run steps).pending c ++ List.range' (run steps).heap.length seqs.length
            else (run steps).pending c := by
          simp only [step, onSend, if_true]
        rw [e]
        by_cases hc : c' = c
        · subst hc
          simp only [if_true]
          rw [List.map_append, keep, List.map_append]
          congr 1
          have eh : (step (run steps) (.send c' phone seqs true now)).heap =
              (run steps).heap ++ seqs.map (fun q => { phone := phone, sequenceId := q, sendTime := now }) := by
            simp only [step, onSend, if_true]
            exact (sendPackets_fields _ _ _ _).1
          apply List.ext_getElem?
          intro n
          rw [List.getElem?_map, List.getElem?_map, List.getElem?_map]
          by_cases hn : n < seqs.length
          · rw [List.getElem?_range' hn]
            unfold pkt
            simp only [Option.map_some]
            rw [eh, List.getElem?_append_right (by omega)]
            simp [hn]
          · rw [List.getElem?_eq_none (by simpa using hn), List.getElem?_eq_none (by simpa using hn)]
            rfl
        · simp only [if_neg hc, if_neg (fun h : c = c' => hc h.symm)]
          exact keep
    | save c' id =>
      have e : (step (run steps) (.save c' id)).pending c = if c = c' then [] else (run steps).pending c := rfl
      rw [e]
      by_cases hc : c' = c
      · subst hc; simp
      · simp only [if_neg hc, if_neg (fun h : c = c' => hc h.symm)]
        exact keep
    | resp q now =>
      have e : (step (run steps) (.resp q now)).pending = (run steps).pending := by
        simp only [step, onResp]; split <;> rfl
      rw [e]
      exact keep
    | report q now =>
      have e : (step (run steps) (.report q now)).pending = (run steps).pending := by
        simp only [step, onReport]; split <;> rfl
      rw [e]
      exact keep
    | cleanQueries order handler d now => exact keep
    | cleanSeqs d now => exact keep
    | cleanMsgs d now => exact keep

/-- The results pending for a call were sent by it. -/
theorem pending_time (steps : List Step) (c : Nat) (P : Int → Prop)
    (hP : ∀ phone seqs ok t, Step.send c phone seqs ok t ∈ steps → P t) :
    ∀ i ∈ (run steps).pending c, ∃ r, (run steps).heap[i]? = some r ∧ P r.sendTime := by
  induction steps using snoc_induction with
  | nil => intro i hi; simp [run] at hi
  | snoc steps x ih =>
    have ih' := ih fun phone seqs ok t ht => hP phone seqs ok t (by simp [ht])
    have keep : ∀ i ∈ (run steps).pending c, ∃ r, (step (run steps) x).heap[i]? = some r ∧ P r.sendTime := by
      intro i hi
      obtain ⟨r, hr, hp⟩ := ih' i hi
      obtain ⟨r', hr', _, _, h3⟩ := heap_step (run steps) x i r hr
      exact ⟨r', hr', by rw [h3]; exact hp⟩
    rw [run_snoc]
    cases x with
    | send c' phone seqs ok now =>
      intro i hi
      simp only [step, onSend] at hi
      split at hi
      · dsimp only at hi
        split at hi
        · rename_i hok hc
          rcases List.mem_append.1 hi with hi | hi
          · exact keep i hi
          · have eh : (step (run steps) (.send c' phone seqs ok now)).heap =
                (run steps).heap ++ seqs.map (fun q => { phone := phone, sequenceId := q, sendTime := now }) := by
              simp only [step, onSend, hok, if_true]
              exact (sendPackets_fields _ _ _ _).1
            rw [List.mem_range'_1] at hi
            rw [eh, List.getElem?_append_right hi.1, List.getElem?_map]
            have : i - (run steps).heap.length < seqs.length := by omega
            rw [List.getElem?_eq_getElem this]
            exact ⟨_, rfl, hP phone seqs ok now (by rw [hc]; simp)⟩
        · exact keep i hi
      · rw [(sendPackets_fields _ _ _ _).2.1] at hi
        exact keep i hi
    | save c' id =>
      intro i hi
      have e : (step (run steps) (.save c' id)).pending c = if c = c' then [] else (run steps).pending c := rfl
      rw [e] at hi
      split at hi
      · simp at hi
      · exact keep i hi
    | resp q now =>
      have e : (step (run steps) (.resp q now)).pending = (run steps).pending := by
        simp only [step, onResp]; split <;> rfl
      rw [e]
      exact keep
    | report q now =>
      have e : (step (run steps) (.report q now)).pending = (run steps).pending := by
        simp only [step, onReport]; split <;> rfl
      rw [e]
      exact keep
    | cleanQueries order handler d now => exact keep
    | cleanSeqs d now => exact keep
    | cleanMsgs d now => exact keep

theorem queries_step (s : State) (x : Step) (id : Int) (h : ¬ Spec.saves id x) :
    (step s x).queries.load (.i64 id) = s.queries.load (.i64 id) ∨
    ((step s x).queries.load (.i64 id) = none ∧ ∃ order handler d now l, x = .cleanQueries order handler d now ∧
      s.queries.load (.i64 id) = some l ∧ entryExpired s.heap d now l = true) := by
  cases x with
  | send c' phone seqs ok now =>
    left
    have e : (step s (.send c' phone seqs ok now)).queries = s.queries := by
      simp only [step, onSend]; split <;> exact (sendPackets_fields _ _ _ _).2.2.1
    rw [e]
  | save c' id' =>
    left
    simp only [step, onSave]
    rw [load_store, if_neg]
    intro he
    injection he with he
    exact h he.symm
  | resp q now => left; simp only [step, onResp]; split <;> rfl
  | report q now => left; simp only [step, onReport]; split <;> rfl
  | cleanQueries order handler d now =>
    rw [(clean_exact s order handler d now (.i64 id)).1]
    cases hl : s.queries.load (.i64 id) with
    | none => left; rfl
    | some l =>
      dsimp only
      split
      · rename_i hc; right; exact ⟨rfl, order, handler, d, now, l, rfl, rfl, hc.2⟩
      · left; rfl
  | cleanSeqs d now => left; rfl
  | cleanMsgs d now => left; rfl

/-- C56 in every history: a call that got something sent stores its results under its id; until a cleaning at
which its packets are older than the limit, and as long as no other call uses the id, `Query` returns
exactly the results of the packets it sent, one for each, in order, with number and sequence number. -/
theorem query_results_partial (pre post : List Step) (c : Nat) (id : Int) (hne : Spec.sent c pre ≠ [])
    (hsave : ∀ x ∈ post, ¬ Spec.saves id x)
    (hold : ∀ phone seqs ok t, Step.send c phone seqs ok t ∈ pre → ∀ x ∈ post, ¬ Spec.dropsQuery t x) :
    ∃ l, query (run (pre ++ .save c id :: post)) id = .results l ∧
      l.map (pkt (run (pre ++ .save c id :: post))) = (Spec.sent c pre).map some := by
  have main : ∃ l, (run (pre ++ .save c id :: post)).queries.load (.i64 id) = some l ∧
      l.map (pkt (run (pre ++ .save c id :: post))) = (Spec.sent c pre).map some ∧
      ∀ i ∈ l, ∃ r, (run (pre ++ .save c id :: post)).heap[i]? = some r ∧
        ∃ phone seqs ok, Step.send c phone seqs ok r.sendTime ∈ pre := by
    induction post using snoc_induction with
    | nil =>
      rw [run_snoc]
      refine ⟨(run pre).pending c, ?_, map_pkt_step (pending_run pre c) _, ?_⟩
      · simp only [step, onSave]; rw [load_store, if_pos rfl]
      · intro i hi
        obtain ⟨r, hr, hp⟩ := pending_time pre c (fun t => ∃ phone seqs ok, Step.send c phone seqs ok t ∈ pre)
          (fun phone seqs ok t ht => ⟨phone, seqs, ok, ht⟩) i hi
        obtain ⟨r', hr', _, _, h3⟩ := heap_step (run pre) (.save c id) i r hr
        exact ⟨r', hr', by rw [h3]; exact hp⟩
    | snoc post x ih =>
      obtain ⟨l, h1, h2, h3⟩ := ih (fun y hy => hsave y (by simp [hy]))
        fun phone seqs ok t ht y hy => hold phone seqs ok t ht y (by simp [hy])
      have e : pre ++ Step.save c id :: (post ++ [x]) = (pre ++ Step.save c id :: post) ++ [x] := by simp
      rw [e, run_snoc]
      refine ⟨l, ?_, map_pkt_step h2 x, ?_⟩
      · rcases queries_step (run (pre ++ .save c id :: post)) x id (hsave x (by simp)) with h | ⟨_, order, handler, d, now, l', hx, hl', hexp⟩
        · rw [h]; exact h1
        · exfalso
          rw [h1] at hl'
          injection hl' with hl'
          subst hl'
          cases l with
          | nil =>
            rw [List.map_nil] at h2
            exact hne (List.map_eq_nil_iff.1 h2.symm)
          | cons i rest =>
            obtain ⟨r, hr, phone, seqs, ok, hs⟩ := h3 i (by simp)
            simp only [entryExpired, expired] at hexp
            rw [hr] at hexp
            simp only [decide_eq_true_eq] at hexp
            refine hold phone seqs ok r.sendTime hs x (by simp) ?_
            rw [hx]
            exact hexp
      · intro i hi
        obtain ⟨r, hr, hp⟩ := h3 i hi
        obtain ⟨r', hr', _, _, h5⟩ := heap_step (run (pre ++ .save c id :: post)) x i r hr
        exact ⟨r', hr', by rw [h5]; exact hp⟩
  obtain ⟨l, h1, h2, _⟩ := main
  refine ⟨l, ?_, h2⟩
  unfold query
  rw [h1]
  cases l with
  | nil =>
    rw [List.map_nil] at h2
    exact absurd (List.map_eq_nil_iff.1 h2.symm) hne
  | cons i rest => rfl

/-- `Query` of an id that no call has used returns nil. -/
theorem query_unknown (steps : List Step) (id : Int) (h : ∀ x ∈ steps, ¬ Spec.saves id x) :
    query (run steps) id = .nil := by
  have : (run steps).queries.load (.i64 id) = none := by
    induction steps using snoc_induction with
    | nil => rfl
    | snoc steps x ih =>
      rw [run_snoc]
      have ih' := ih fun y hy => h y (by simp [hy])
      rcases queries_step (run steps) x id (h x (by simp)) with h1 | h1
      · rw [h1, ih']
      · exact h1.1
  unfold query
  rw [this]

/-- C56 fails: when a call got nothing onto the wire (no session, rate limited, write error for every number),
`Query` of the id it returned panics. -/
theorem query_panics_fails (steps : List Step) (c : Nat) (id : Int) (h : Spec.sent c steps = []) :
    query (run (steps ++ [.save c id])) id = .panic := by
  have : (run steps).pending c = [] := by
    have := pending_run steps c
    rw [h] at this
    exact List.map_eq_nil_iff.1 this
  rw [run_snoc]
  unfold query
  simp only [step, onSave]
  rw [load_store, if_pos rfl, this]

/-- C56 fails: when writing a later packet of a number fails, the packets of the number already sent are missing:
the call's results are the same as if they had not been sent. -/
theorem query_drops_sent_fails (steps : List Step) (c : Nat) (phone : Bytes) (seqs : List UInt64) (t : Int) :
    (run (steps ++ [.send c phone seqs false t])).pending c = (run steps).pending c := by
  rw [run_snoc]
  simp only [step, onSend, Bool.false_eq_true, if_false]
  rw [(sendPackets_fields _ _ _ _).2.1]

example : query (run [.send 0 [49] [7, 8] true 0, .send 0 [50] [9] true 0, .save 0 100, .cleanQueries [.i64 100] true 60 50]) 100 =
    .results [0, 1, 2] ∧ query (run [.save 0 100]) 100 = .panic ∧ query (run [.save 0 100]) 101 = .nil := by decide

/-! ## C57 in terms of age -/

/-- In a state reached by any history, an entry is removed by a cleaning that visits it if and only if it is older
than the limit, or has no results. -/
theorem clean_removes_old (steps : List Step) (hp : ∀ x ∈ steps, x.Proper) (order : List Key) (handler : Bool) (d now : Int)
    (k : Key) (l : List Nat) (hl : (run steps).queries.load k = some l) (hk : k ∈ order) :
    (run (steps ++ [.cleanQueries order handler d now])).queries.load k = none ↔
      l = [] ∨ Spec.old (run steps).heap d now l := by
  rw [run_snoc, (clean_exact (run steps) order handler d now k).1, hl]
  have : (entryExpired (run steps).heap d now l = true) ↔ l = [] ∨ Spec.old (run steps).heap d now l := by
    cases l with
    | nil => simp [entryExpired]
    | cons i rest =>
      have hb := (owned_run steps hp).queryBound k _ (mem_of_load hl) i (by simp)
      simp only [entryExpired, expired, Spec.old]
      rw [List.getElem?_eq_getElem hb]
      simp only [decide_eq_true_eq]
      constructor
      · intro h; right; exact ⟨i, rest, _, rfl, List.getElem?_eq_getElem hb, h⟩
      · rintro (h | ⟨j, rest', r, h1, h2, h3⟩)
        · cases h
        · injection h1 with h1 _
          subst h1
          rw [List.getElem?_eq_getElem hb] at h2
          injection h2 with h2
          rw [h2]; exact h3
  rw [← this]
  dsimp only
  constructor
  · intro h
    split at h
    · rename_i hc; exact hc.2
    · cases h
  · intro h
    rw [if_pos ⟨hk, h⟩]

/-- In every history the results under a query id carry this id. -/
theorem query_ids (steps : List Step) (hp : ∀ x ∈ steps, x.Proper) (id : Int) (l : List Nat)
    (h : query (run steps) id = .results l) : ∀ i ∈ l, ∃ r, (run steps).heap[i]? = some r ∧ r.queryId = id := by
  have main : ∀ k l, (k, l) ∈ (run steps).queries → ∃ id, k = .i64 id ∧
      ∀ i ∈ l, ∃ r, (run steps).heap[i]? = some r ∧ r.queryId = id := by
    clear h
    induction steps using snoc_induction with
    | nil => intro k l h; simp [run] at h
    | snoc steps x ih =>
      have ih' := ih fun y hy => hp y (by simp [hy])
      have hown := owned_run steps fun y hy => hp y (by simp [hy])
      rw [run_snoc]
      have keep : (∀ (i : Nat) (r : Result), (run steps).heap[i]? = some r → ∃ r' : Result, (step (run steps) x).heap[i]? = some r' ∧ r'.queryId = r.queryId) →
          ∀ k l, (k, l) ∈ (run steps).queries → ∃ id, k = .i64 id ∧
            ∀ i ∈ l, ∃ r, (step (run steps) x).heap[i]? = some r ∧ r.queryId = id := by
        intro hk k l hkl
        obtain ⟨id, h1, h2⟩ := ih' k l hkl
        refine ⟨id, h1, ?_⟩
        intro i hi
        obtain ⟨r, h3, h4⟩ := h2 i hi
        obtain ⟨r', h5, h6⟩ := hk i r h3
        exact ⟨r', h5, by rw [h6, h4]⟩
      cases x with
      | send c phone seqs ok now =>
        have e : (step (run steps) (.send c phone seqs ok now)).queries = (run steps).queries := by
          simp only [step, onSend]; split <;> exact (sendPackets_fields _ _ _ _).2.2.1
        rw [e]
        apply keep
        intro i r hr
        have e : (step (run steps) (.send c phone seqs ok now)).heap = (sendPackets (run steps) phone now seqs).heap := by
          simp only [step, onSend]; split <;> rfl
        rw [e, (sendPackets_fields _ _ _ _).1, List.getElem?_append_left (List.getElem?_eq_some_iff.1 hr).1]
        exact ⟨r, hr, rfl⟩
      | save c id' =>
        intro k l hkl
        simp only [step, onSave] at hkl ⊢
        rcases List.mem_cons.1 hkl with hkl | hkl
        · injection hkl with h1 h2
          refine ⟨id', h1, ?_⟩
          intro i hi
          rw [h2] at hi
          rw [List.getElem?_mapIdx, List.getElem?_eq_getElem (hown.pendBound c i hi)]
          refine ⟨_, rfl, ?_⟩
          dsimp only
          rw [if_pos hi]
        · have hm := mem_delete hkl
          obtain ⟨id, h1, h2⟩ := ih' k l hm
          refine ⟨id, h1, ?_⟩
          intro i hi
          obtain ⟨r, h3, h4⟩ := h2 i hi
          rw [List.getElem?_mapIdx, h3]
          refine ⟨_, rfl, ?_⟩
          dsimp only
          rw [if_neg (hown.queryPend k l c i hm hi)]
          exact h4
      | resp q now =>
        have e : (step (run steps) (.resp q now)).queries = (run steps).queries := by
          simp only [step, onResp]; split <;> rfl
        rw [e]
        apply keep
        intro i r hr
        simp only [step, onResp]
        split
        · exact ⟨r, hr, rfl⟩
        · dsimp only
          rw [List.getElem?_modify, hr]
          refine ⟨_, rfl, ?_⟩
          split <;> rfl
      | report q now =>
        have e : (step (run steps) (.report q now)).queries = (run steps).queries := by
          simp only [step, onReport]; split <;> rfl
        rw [e]
        apply keep
        intro i r hr
        simp only [step, onReport]
        split
        · exact ⟨r, hr, rfl⟩
        · dsimp only
          rw [List.getElem?_modify, hr]
          refine ⟨_, rfl, ?_⟩
          split <;> rfl
      | cleanQueries order handler d now =>
        intro k l hkl
        exact keep (fun i r hr => ⟨r, hr, rfl⟩) k l (mem_deleteAll hkl)
      | cleanSeqs d now => exact keep fun i r hr => ⟨r, hr, rfl⟩
      | cleanMsgs d now => exact keep fun i r hr => ⟨r, hr, rfl⟩
  unfold query at h
  split at h
  · cases h
  · cases h
  · rename_i l' _ hl
    injection h with h
    subst h
    obtain ⟨id', h1, h2⟩ := main _ _ (mem_of_load hl)
    injection h1 with h1
    subst h1
    exact h2

/-! ## Reports -/

/-- Message ids in reports of SMGP carriers have 10 bytes (smgp/report.go:16, `id` of `Report.Decode`). -/
def Step.WireReport : Step → Prop
  | .report (.smgp m _) _ => m.length = 10
  | _ => True

theorem length_dec10 (x : UInt32) : (dec10 x).length = 10 := by simp [dec10]

theorem length_sequence2String (a b c : UInt32) : (sequence2String a b c).length = 28 := by
  unfold sequence2String
  rw [List.length_append, List.length_append, length_dec10, length_dec10, (uint32HexString_value c).1]

/-- The value of decimal digits, in characters. -/
def Spec.decVal (b : Bytes) : Option Nat :=
  b.foldl (fun v c => v.bind fun n => if 48 ≤ c ∧ c ≤ 57 then some (10 * n + (c.toNat - 48)) else none) (some 0)

theorem decVal_prefix (x : UInt32) (k : Nat) (hk : k ≤ 10) :
    Spec.decVal ((List.range k).map fun i => UInt8.ofNat (48 + x.toNat / 10 ^ (9 - i) % 10)) = some (x.toNat / 10 ^ (10 - k)) := by
  induction k with
  | zero =>
    have := x.toNat_lt
    simp only [List.range_zero, List.map_nil, Spec.decVal, List.foldl_nil]
    rw [Nat.div_eq_of_lt (by omega)]
  | succ k ih =>
    rw [List.range_succ, List.map_append, List.map_cons, List.map_nil]
    unfold Spec.decVal at ih ⊢
    rw [List.foldl_append, ih (by omega), List.foldl_cons, List.foldl_nil, Option.bind_some]
    have hd := Nat.mod_lt (x.toNat / 10 ^ (9 - k)) (by decide : 10 > 0)
    have hc : (UInt8.ofNat (48 + x.toNat / 10 ^ (9 - k) % 10)).toNat = 48 + x.toNat / 10 ^ (9 - k) % 10 := by
      rw [UInt8.toNat_ofNat']; omega
    rw [if_pos ⟨by rw [UInt8.le_iff_toNat_le, hc]; simp, by rw [UInt8.le_iff_toNat_le, hc]; simp; omega⟩, hc,
      show 10 - (k + 1) = 9 - k by omega, show 10 - k = (9 - k) + 1 by omega, Nat.pow_succ, ← Nat.div_div_eq_div_mul]
    congr 1
    have := Nat.div_add_mod (x.toNat / 10 ^ (9 - k)) 10
    omega

/-- The message id recorded for an SGIP message, as the user sees it: the first two words of the sequence number with ten decimal digits
each, the third with eight hexadecimal digits. -/
theorem sgip_msg_id_text (a b c : UInt32) :
    Spec.decVal ((sequence2String a b c).take 10) = some a.toNat ∧
    Spec.decVal (((sequence2String a b c).drop 10).take 10) = some b.toNat ∧
    Gosms.Spec.hexVal ((sequence2String a b c).drop 20) = some c.toNat ∧
    (sequence2String a b c).length = 28 := by
  have h := decVal_prefix
  have e : ∀ x : UInt32, Spec.decVal (dec10 x) = some x.toNat := by
    intro x
    have := h x 10 (Nat.le_refl _)
    simpa [dec10] using this
  have t : (sequence2String a b c).take 10 = dec10 a := by
    unfold sequence2String
    rw [List.append_assoc, List.take_append_of_le_length (by rw [length_dec10]; exact Nat.le_refl _),
      List.take_of_length_le (by rw [length_dec10]; exact Nat.le_refl _)]
  have d : (sequence2String a b c).drop 10 = dec10 b ++ uint32HexString c := by
    unfold sequence2String
    rw [List.append_assoc, ← length_dec10 a, List.drop_left]
  refine ⟨by rw [t, e], ?_, ?_, length_sequence2String a b c⟩
  · rw [d, List.take_append_of_le_length (by rw [length_dec10]; exact Nat.le_refl _),
      List.take_of_length_le (by rw [length_dec10]; exact Nat.le_refl _), e]
  · have : (sequence2String a b c).drop 20 = uint32HexString c := by
      rw [show 20 = 10 + 10 by rfl, ← List.drop_drop, d, ← length_dec10 b, List.drop_left]
    rw [this, (uint32HexString_value c).2]

example : sequence2String 3 4294967295 255 =
    [48,48,48,48,48,48,48,48,48,51, 52,50,57,52,57,54,55,50,57,53, 48,48,48,48,48,48,102,102] := by decide

/-- Different byte strings have different hexadecimal texts. -/
theorem hexBytes_inj (a b : Bytes) (h : Smgp.hexBytes a = Smgp.hexBytes b) : a = b := by
  induction a generalizing b with
  | nil =>
    have := congrArg List.length h
    rw [Smgp.length_hexBytes, Smgp.length_hexBytes] at this
    exact (List.length_eq_zero_iff.mp (by simp at this; omega)).symm
  | cons x a ih =>
    cases b with
    | nil =>
      have := congrArg List.length h
      rw [Smgp.length_hexBytes, Smgp.length_hexBytes] at this
      simp at this
    | cons y b =>
      have h' : hexLoop x.toNat 1 ++ Smgp.hexBytes a = hexLoop y.toNat 1 ++ Smgp.hexBytes b := h
      obtain ⟨h1, h2⟩ := List.append_inj h' rfl
      have v : ∀ z : UInt8, Gosms.Spec.hexVal (hexLoop z.toNat 1) = some z.toNat := by
        intro z
        rw [Gosms.Spec.hexVal, hexVal_hexLoop]
        have := z.toNat_lt
        congr 1
        omega
      have e := v x
      rw [h1, v y] at e
      rw [ih b h2, UInt8.toNat_inj.mp (Option.some.inj e)]

/-- C69: what the lookup of reports relies on. The key a report is looked up with is the message id recorded with an answer exactly if the two carry
the same id, in CMPP (eight bytes) and in SMGP (any bytes), and no id of one protocol is taken for one of another (an SGIP id is
never that of a report). -/
theorem report_id_is_answer_id :
    (∀ seq m code m' st, (Resp.cmpp seq m code).msgId = (Report.cmpp m' st).msgId ↔ m = m') ∧
    (∀ seq m code m' st, (Resp.smgp seq m code).msgId = (Report.smgp m' st).msgId ↔ m = m') ∧
    (∀ seq m code m' st, m'.length = 10 → (Resp.cmpp seq m code).msgId ≠ (Report.smgp m' st).msgId) ∧
    (∀ seq m code m' st, m.length = 10 → (Resp.smgp seq m code).msgId ≠ (Report.cmpp m' st).msgId) ∧
    ∀ a b c code, (∀ m st, (Resp.sgip a b c code).msgId ≠ (Report.cmpp m st).msgId) ∧
      ∀ m st, m.length = 10 → (Resp.sgip a b c code).msgId ≠ (Report.smgp m st).msgId := by
  have l16 : ∀ m, (uint64HexString m).length = 16 := fun m => (uint64HexString_value m).1
  refine ⟨fun _ m _ m' _ => ⟨uint64HexString_injective m m', fun h => by rw [h]; rfl⟩,
    fun _ m _ m' _ => ⟨hexBytes_inj m m', fun h => by rw [h]; rfl⟩, ?_, ?_, fun a b c code => ⟨?_, ?_⟩⟩
  · intro seq m code m' st hm h
    have := congrArg List.length h
    simp only [Resp.msgId, Report.msgId, l16, Smgp.length_hexBytes, hm] at this
    omega
  · intro seq m code m' st hm h
    have := congrArg List.length h
    simp only [Resp.msgId, Report.msgId, l16, Smgp.length_hexBytes, hm] at this
    omega
  · intro m st h
    have := congrArg List.length h
    simp only [Resp.msgId, Report.msgId, l16, length_sequence2String] at this
    omega
  · intro m st hm h
    have := congrArg List.length h
    simp only [Resp.msgId, Report.msgId, Smgp.length_hexBytes, hm, length_sequence2String] at this
    omega

example : (Resp.smgp 1 [0, 0x99, 9, 1, 2, 3, 4, 5, 6, 7] 0).msgId = ascii "00990901020304050607" ∧
    (Resp.cmpp 1 255 0).msgId = ascii "00000000000000ff" := by decide +kernel

/-- C69 fails in every history, whatever carriers are used: no report is ever recorded in any result. The ids of
CMPP and SMGP messages are never stored, and those of SGIP messages, the only ones stored, are 28 characters
long, while reports carry ids of 16 or 20. -/
theorem report_recorded_fails (steps : List Step) (h : ∀ x ∈ steps, x.WireReport) :
    ∀ r ∈ (run steps).heap, r.report = [] ∧ r.reportTime = 0 := by
  have keys : ∀ steps : List Step, ∀ k i, (k, i) ∈ (run steps).msgMap → ∃ m, k = .str m ∧ m.length = 28 := by
    clear h steps
    intro steps
    induction steps using snoc_induction with
    | nil => intro k i hk; simp [run] at hk
    | snoc steps x ih =>
      cases x with
      | send c phone seqs ok now =>
        have e : (step (run steps) (.send c phone seqs ok now)).msgMap = (run steps).msgMap := by
          simp only [step, onSend]; split <;> exact (sendPackets_fields _ _ _ _).2.2.2.2
        rw [run_snoc, e]
        exact ih
      | save c id => rw [run_snoc]; exact ih
      | resp q now =>
        cases q with
        | cmpp seq m c => rw [(response_recorded_cmpp_smgp_fails steps now seq).1]; exact ih
        | smgp seq m c => rw [(response_recorded_cmpp_smgp_fails steps now seq).2]; exact ih
        | sgip s0 s1 s2 st =>
          rw [run_snoc]
          simp only [step, onResp]
          split
          · exact ih
          · intro k i hk
            dsimp only at hk
            rcases List.mem_cons.1 hk with hk | hk
            · injection hk with h1 _
              exact ⟨_, h1, length_sequence2String s0 s1 s2⟩
            · exact ih k i (mem_delete hk)
      | report q now =>
        have e : (step (run steps) (.report q now)).msgMap = (run steps).msgMap := by
          simp only [step, onReport]; split <;> rfl
        rw [run_snoc, e]
        exact ih
      | cleanQueries order handler d now => rw [run_snoc]; exact ih
      | cleanSeqs d now => rw [run_snoc]; exact ih
      | cleanMsgs d now => rw [run_snoc]; intro k i hk; exact ih k i (mem_deleteAll hk)
  induction steps using snoc_induction with
  | nil => simp [run]
  | snoc steps x ih =>
    have hr := ih fun y hy => h y (by simp [hy])
    have hx := h x (by simp)
    rw [run_snoc]
    cases x with
    | send call phone seqs ok now =>
      have e : (step (run steps) (.send call phone seqs ok now)).heap = (sendPackets (run steps) phone now seqs).heap := by
        simp only [step, onSend]; split <;> rfl
      rw [e, (sendPackets_fields (run steps) phone now seqs).1]
      intro r hr'
      rcases List.mem_append.1 hr' with hr' | hr'
      · exact hr r hr'
      · obtain ⟨q, _, rfl⟩ := List.mem_map.1 hr'
        exact ⟨rfl, rfl⟩
    | save call id =>
      intro r hr'
      simp only [step, onSave] at hr'
      obtain ⟨i, hi, rfl⟩ := List.mem_mapIdx.1 hr'
      have := hr _ (List.getElem_mem hi)
      split
      · exact this
      · exact this
    | resp q now =>
      intro r hr'
      simp only [step, onResp] at hr'
      split at hr'
      · exact hr r hr'
      · dsimp only at hr'
        obtain ⟨n, hn⟩ := List.mem_iff_getElem?.1 hr'
        rw [List.getElem?_modify] at hn
        cases hg : (run steps).heap[n]? with
        | none => rw [hg] at hn; cases hn
        | some r0 =>
          rw [hg] at hn
          have h0 := hr r0 (List.mem_iff_getElem?.2 ⟨n, hg⟩)
          simp only [Option.map_eq_map, Option.map_some, Option.some.injEq] at hn
          subst hn
          split
          · exact h0
          · exact h0
    | report q now =>
      have e : step (run steps) (.report q now) = run steps := by
        simp only [step, onReport]
        split
        · rfl
        · rename_i i hl
          exfalso
          obtain ⟨m, h1, h2⟩ := keys steps _ _ (mem_of_load hl)
          injection h1 with h1
          subst h1
          cases q with
          | cmpp m s =>
            simp only [Report.msgId] at h2
            rw [(uint64HexString_value m).1] at h2
            cases h2
          | smgp m s =>
            simp only [Report.msgId] at h2
            rw [Smgp.length_hexBytes] at h2
            have : m.length = 10 := hx
            omega
      rw [e]
      exact hr
    | cleanQueries order handler d now => exact hr
    | cleanSeqs d now => exact hr
    | cleanMsgs d now => exact hr

/-- A message is accepted and delivered; the sender never learns. -/
example : (run [.send 0 [49] [7] true 0, .save 0 100, .resp (.cmpp 7 99 0) 1, .report (.cmpp 99 (ascii "DELIVRD")) 2]).heap.map
    (fun r => (r.msgId, r.report)) = [([], [])] := by decide

end Gosms.Client
