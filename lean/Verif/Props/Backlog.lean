import Verif.Spec.Backlog
import Verif.Props.Traffic

/-!
# C139: the server keeps up with what has arrived

Which packets have been given to the handlers after any sequence of arrivals, exactly.
-/

namespace Gosms.Traffic
open Gosms.Spec

theorem length_raw (q : Packet) : (raw q).length = 12 + q.body.length := by
  simp only [raw, Spec.header12, List.length_append, length_be32]

theorem declared_raw (q : Packet) (hl : 12 + q.body.length ≤ 5120) (x : Bytes) : declared (raw q ++ x) = 12 + q.body.length := by
  have l1 : (be32 (UInt32.ofNat (12 + q.body.length))).length = 4 := length_be32 _
  rw [declared_append (by rw [length_raw]; omega)]
  unfold declared raw Spec.header12
  rw [List.append_assoc, List.append_assoc, List.take_left' l1, ← rd32_toNat l1, rd32_be32, UInt32.toNat_ofNat']
  omega

theorem command_append {a b : Bytes} (h : 8 ≤ a.length) : command (a ++ b) = command a := by
  unfold command
  rw [List.drop_append_of_le_length (by omega), List.take_append_of_le_length (by rw [List.length_drop]; omega)]

theorem command_raw (q : Packet) (x : Bytes) : command (raw q ++ x) = q.cmd := by
  have l1 : (be32 (UInt32.ofNat (12 + q.body.length))).length = 4 := length_be32 _
  have l2 : (be32 q.cmd).length = 4 := length_be32 _
  rw [command_append (by rw [length_raw]; omega)]
  unfold command raw Spec.header12
  rw [List.append_assoc, List.append_assoc, List.drop_left' l1, List.take_left' l2, rd32_be32]

/-- Part of a proper packet: wait for more. -/
theorem decode_torn (zeroAll : Bool) (p : Proto) (q : Packet) (hk : Known p q.cmd) (hl : 12 + q.body.length ≤ 5120) (b f x : Bytes)
    (h : b ++ f = raw q ++ x) (hb : b.length < (raw q).length) : decodeAndCheckHeader zeroAll p b = some .wait := by
  rw [length_raw] at hb
  rcases decode_cases zeroAll p b with ⟨_, e⟩ | ⟨h12, e, _⟩ | ⟨_, _, _, _, _, e⟩ | ⟨h12, _, _, _, h5, e⟩
  · exact e
  · have hd : declared b = 12 + q.body.length := by rw [← declared_append (b := f) (by omega), h, declared_raw q hl]
    have hc : command b = q.cmd := by rw [← command_append (b := f) (by omega), h, command_raw]
    rw [hd, hc] at e
    rcases e with e | e | e
    · omega
    · omega
    · exact absurd hk e
  · exact e
  · have hd : declared b = 12 + q.body.length := by rw [← declared_append (b := f) (by omega), h, declared_raw q hl]
    omega

theorem wholeIn_skip (done qs : List Packet) (m : Nat) :
    wholeIn (done ++ qs) ((done.flatMap raw).length + m) = done.length + wholeIn qs m := by
  induction done with
  | nil => simp
  | cons q t ih =>
    simp only [List.cons_append, wholeIn, List.flatMap_cons, List.length_append, List.length_cons]
    rw [if_pos (by omega), show (raw q).length + (t.flatMap raw).length + m - (raw q).length = (t.flatMap raw).length + m by omega, ih]
    omega

theorem receive_snoc (zeroAll : Bool) (p : Proto) (closes : List Packet → Packet → Bool) (c : Conn) (segs : List Bytes) (s : Bytes) :
    receive zeroAll p closes c (segs ++ [s]) = (receive zeroAll p closes c segs).bind fun c => onTraffic zeroAll p closes c s := by
  unfold receive
  rw [List.foldlM_append]
  cases segs.foldlM (onTraffic zeroAll p closes) c with
  | none => rfl
  | some c => simp [List.foldlM_cons, List.foldlM_nil]

/-- One arrival: one more packet is handed over, if one has arrived. -/
theorem keep_step (zeroAll : Bool) (p : Proto) (closes : List Packet → Packet → Bool) (hc : ∀ d q, closes d q = false) (done left : List Packet)
    (hs : Sendable zeroAll p left) (b data f : Bytes) (h : b ++ data ++ f = left.flatMap raw) :
    ∃ b' done' left', onTraffic zeroAll p closes ⟨b, done, true⟩ data = some ⟨b', done', true⟩ ∧ done' ++ left' = done ++ left ∧
      b' ++ f = left'.flatMap raw ∧
      done'.length = min (done.length + 1) (wholeIn (done ++ left) ((done.flatMap raw).length + (b.length + data.length))) := by
  rw [wholeIn_skip]
  cases left with
  | nil =>
    have hb : b ++ data = [] := (List.append_eq_nil_iff.1 h).1
    refine ⟨b ++ data, done, [], ?_, rfl, h, by simp [wholeIn]⟩
    unfold onTraffic
    rw [if_pos rfl]
    simp only [hb]
    simp [decodeAndCheckHeader]
  | cons q t =>
    obtain ⟨hk, hl, hz⟩ := hs q (by simp)
    rw [List.flatMap_cons] at h
    by_cases hw : (raw q).length ≤ (b ++ data).length
    · obtain ⟨more, hm⟩ : ∃ more, b ++ data = raw q ++ more := by
        refine ⟨(b ++ data).drop (raw q).length, ?_⟩
        have h1 := congrArg (List.take (raw q).length) h
        rw [List.take_append_of_le_length hw, List.take_left] at h1
        rw [← h1, List.length_take, Nat.min_eq_left hw, List.take_append_drop]
      refine ⟨more, done ++ [q], t, ?_, by simp, ?_, ?_⟩
      · have := packet_progress_partial zeroAll p closes ⟨b, done, true⟩ rfl data q more hm hk hl hz
        rw [this, hc]; rfl
      · rw [hm, List.append_assoc] at h
        exact List.append_cancel_left h
      · rw [← List.length_append, wholeIn, if_pos hw]
        simp only [List.length_append, List.length_cons, List.length_nil]
        omega
    · refine ⟨b ++ data, done, q :: t, ?_, rfl, by rw [List.flatMap_cons]; exact h, ?_⟩
      · unfold onTraffic
        rw [if_pos rfl]
        simp only [decode_torn zeroAll p q hk hl (b ++ data) f _ h (by omega), Option.map_some]
      · rw [← List.length_append, wholeIn, if_neg hw]
        omega

theorem keep_run (zeroAll : Bool) (p : Proto) (closes : List Packet → Packet → Bool) (hc : ∀ d q, closes d q = false) (qs : List Packet)
    (hs : Sendable zeroAll p qs) (segs : List Bytes) : ∀ f, segs.flatten ++ f = qs.flatMap raw →
    ∃ b done left, receive zeroAll p closes {} segs = some ⟨b, done, true⟩ ∧ done ++ left = qs ∧ b ++ f = left.flatMap raw ∧
      (∀ i, i ≤ segs.length → done.length ≤ arrived qs segs i + (segs.length - i)) ∧
      ∃ i, i ≤ segs.length ∧ done.length = arrived qs segs i + (segs.length - i) := by
  induction segs using snoc_induction with
  | nil =>
    intro f h
    refine ⟨[], [], qs, rfl, rfl, h, fun i hi => by simp, 0, Nat.le_refl _, ?_⟩
    cases qs with
    | nil => rfl
    | cons q t =>
      simp only [arrived, List.take_nil, List.flatten_nil, List.length_nil, wholeIn]
      rw [if_neg (by rw [length_raw]; omega)]
  | snoc segs s ih =>
    intro f h
    rw [List.flatten_append, List.flatten_singleton, List.append_assoc] at h
    obtain ⟨b, done, left, h1, h2, h3, h4, i, hi, h5⟩ := ih (s ++ f) h
    obtain ⟨b', done', left', g1, g2, g3, g4⟩ := keep_step zeroAll p closes hc done left
      (fun q hq => hs q (by rw [← h2]; exact List.mem_append_right _ hq)) b s f (by rw [List.append_assoc]; exact h3)
    have hN : (done.flatMap raw).length + (b.length + s.length) = (segs ++ [s]).flatten.length := by
      have e1 := congrArg List.length h
      have e2 := congrArg List.length h3
      rw [← h2] at e1
      simp only [List.flatMap_append, List.length_append, List.flatten_append, List.flatten_singleton] at e1 e2 ⊢
      omega
    rw [h2, hN] at g4
    have hlast : arrived qs (segs ++ [s]) (segs.length + 1) = wholeIn qs (segs ++ [s]).flatten.length := by
      unfold arrived
      rw [List.take_of_length_le (by simp)]
    have hold : ∀ j, j ≤ segs.length → arrived qs (segs ++ [s]) j = arrived qs segs j := by
      intro j hj
      unfold arrived
      rw [List.take_append_of_le_length hj]
    refine ⟨b', done', left', by rw [receive_snoc, h1]; exact g1, g2.trans h2, g3, ?_, ?_⟩
    · intro j hj
      simp only [List.length_append, List.length_singleton] at hj ⊢
      by_cases hjs : j ≤ segs.length
      · have := h4 j hjs
        rw [hold j hjs]
        omega
      · obtain rfl : j = segs.length + 1 := by omega
        rw [hlast]
        omega
    · simp only [List.length_append, List.length_singleton]
      by_cases hle : done.length + 1 ≤ wholeIn qs (segs ++ [s]).flatten.length
      · refine ⟨i, by omega, ?_⟩
        rw [hold i hi]
        omega
      · refine ⟨segs.length + 1, Nat.le_refl _, ?_⟩
        rw [hlast]
        omega

/-- **C139: how many packets have been handed over, exactly.** A client sends the packets `qs`; `segs` have arrived of them, `f` is still to come. The server
has given the first `n` packets to the handlers, one by one and in order, where `n` is the least over all moments `i` of: the packets
that had arrived by then and one for each segment since. The bytes of all the others, as far as they have arrived, are held back. -/
theorem handed_exactly (zeroAll : Bool) (p : Proto) (closes : List Packet → Packet → Bool) (hc : ∀ d q, closes d q = false) (qs : List Packet)
    (hs : Sendable zeroAll p qs) (segs : List Bytes) (f : Bytes) (hf : segs.flatten ++ f = qs.flatMap raw) :
    ∃ n held, receive zeroAll p closes {} segs = some ⟨held, qs.take n, true⟩ ∧ n ≤ qs.length ∧ held ++ f = (qs.drop n).flatMap raw ∧
      (∀ i, i ≤ segs.length → n ≤ arrived qs segs i + (segs.length - i)) ∧
      ∃ i, i ≤ segs.length ∧ n = arrived qs segs i + (segs.length - i) := by
  obtain ⟨b, done, left, h1, h2, h3, h4, h5⟩ := keep_run zeroAll p closes hc qs hs segs f hf
  subst h2
  refine ⟨done.length, b, by rw [List.take_left]; exact h1, by simp, by rw [List.drop_left]; exact h3, h4, h5⟩

/-- **C139, the part that holds: the server keeps up with a client exactly as long as no run of segments brings more packets than it has segments.** All the
packets that have arrived have been handed over if and only if, of any number of last segments, the packets completed by them are at most
as many. -/
theorem keeps_up_iff_partial (zeroAll : Bool) (p : Proto) (closes : List Packet → Packet → Bool) (hc : ∀ d q, closes d q = false)
    (qs : List Packet) (hs : Sendable zeroAll p qs) (segs : List Bytes) (f : Bytes) (hf : segs.flatten ++ f = qs.flatMap raw) (c : Conn)
    (h : receive zeroAll p closes {} segs = some c) :
    c.handed = qs.take (arrived qs segs segs.length) ↔
      ∀ i, i ≤ segs.length → arrived qs segs segs.length - arrived qs segs i ≤ segs.length - i := by
  obtain ⟨n, held, h1, h2, _, h4, i, hi, h5⟩ := handed_exactly zeroAll p closes hc qs hs segs f hf
  obtain rfl := Option.some.inj (h1.symm.trans h)
  have hn := h4 segs.length (Nat.le_refl _)
  have hle : arrived qs segs segs.length ≤ qs.length := by
    have : ∀ (l : List Packet) (m : Nat), wholeIn l m ≤ l.length := by
      intro l
      induction l with
      | nil => intro m; simp [wholeIn]
      | cons q t ih =>
        intro m
        unfold wholeIn
        split
        · have := ih (m - (raw q).length)
          simp only [List.length_cons]; omega
        · omega
    exact this _ _
  dsimp only
  constructor
  · intro e j hj
    have := congrArg List.length e
    rw [List.length_take, List.length_take] at this
    have := h4 j hj
    omega
  · intro ha
    have := ha i hi
    congr 1
    omega

/-- **C139 fails: what is held back has no bound.** If every segment brings two packets, then after any number `n` of segments `n` packets have not been
handed over, and their bytes are all held back - until more data comes, one segment for each of them. -/
theorem backlog_fails (zeroAll : Bool) (p : Proto) (closes : List Packet → Packet → Bool) (hc : ∀ d q, closes d q = false) (q : Packet)
    (hs : Sendable zeroAll p [q]) (n : Nat) :
    receive zeroAll p closes {} (List.replicate n (raw q ++ raw q)) =
      some ⟨(List.replicate n (raw q)).flatten, List.replicate n q, true⟩ ∧
    ((List.replicate n (raw q)).flatten).length = n * (raw q).length ∧ n ≤ ((List.replicate n (raw q)).flatten).length := by
  obtain ⟨hk, hl, hz⟩ := hs q (by simp)
  have hlen : ((List.replicate n (raw q)).flatten).length = n * (raw q).length := by simp [List.length_flatten]
  refine ⟨?_, hlen, ?_⟩
  · induction n with
    | zero => rfl
    | succ n ih =>
      rw [List.replicate_succ', receive_snoc, ih (by simp [List.length_flatten]), Option.bind_some]
      have e : (List.replicate n (raw q)).flatten ++ (raw q ++ raw q) = raw q ++ (List.replicate (n + 1) (raw q)).flatten := by
        rw [← List.append_assoc]
        have : (List.replicate n (raw q)).flatten ++ raw q = (List.replicate (n + 1) (raw q)).flatten := by
          rw [List.replicate_succ', List.flatten_append, List.flatten_singleton]
        rw [this]
        have h2 : (List.replicate (n + 2) (raw q)).flatten = (List.replicate (n + 1) (raw q)).flatten ++ raw q := by
          rw [List.replicate_succ', List.flatten_append, List.flatten_singleton]
        rw [← h2, List.replicate_succ, List.flatten_cons]
      rw [packet_progress_partial zeroAll p closes ⟨_, _, true⟩ rfl _ q _ e hk hl hz, hc]
      simp [List.replicate_succ']
  · rw [hlen, length_raw]
    exact Nat.le_mul_of_pos_right n (by omega)

/-- **C139: each segment that arrives later makes up for one packet**, whatever it holds, be it a single byte of the next packet: with `k` packets held
back, exactly `k` more segments are needed. -/
theorem made_up (zeroAll : Bool) (p : Proto) (closes : List Packet → Packet → Bool) (hc : ∀ d q, closes d q = false) (done : List Packet)
    (qs : List Packet) (hs : Sendable zeroAll p qs) (x : Bytes) (segs : List Bytes) (hle : segs.length ≤ qs.length) :
    receive zeroAll p closes ⟨qs.flatMap raw ++ x, done, true⟩ segs =
      some ⟨(qs.drop segs.length).flatMap raw ++ x ++ segs.flatten, done ++ qs.take segs.length, true⟩ := by
  induction segs generalizing qs done x with
  | nil => simp [receive]
  | cons s t ih =>
    cases qs with
    | nil => simp at hle
    | cons q r =>
      obtain ⟨hk, hl, hz⟩ := hs q (by simp)
      have := packet_progress_partial zeroAll p closes ⟨(q :: r).flatMap raw ++ x, done, true⟩ rfl s q (r.flatMap raw ++ (x ++ s))
        (by simp) hk hl hz
      have hr := ih (done ++ [q]) r (fun q' h => hs q' (List.mem_cons_of_mem _ h)) (x ++ s) (by simpa using hle)
      unfold receive at hr ⊢
      rw [List.foldlM_cons, this, hc]
      simp only [Bool.not_false, Option.bind_eq_bind, Option.bind_some]
      rw [hr]
      simp

/-- **C139 fails: the server does not catch up by itself.** If `held` packets are held back and from then on each packet arrives in a segment of its own,
then after any number of them as many packets as at first are held back, and each packet is handed over only when as many others have come after
it. -/
theorem lag_stays_fails (zeroAll : Bool) (p : Proto) (closes : List Packet → Packet → Bool) (hc : ∀ d q, closes d q = false) (done : List Packet)
    (held more : List Packet) (hs : Sendable zeroAll p (held ++ more)) :
    receive zeroAll p closes ⟨held.flatMap raw, done, true⟩ (more.map raw) =
      some ⟨((held ++ more).drop more.length).flatMap raw, done ++ (held ++ more).take more.length, true⟩ ∧
    ((held ++ more).drop more.length).length = held.length := by
  refine ⟨?_, by simp⟩
  induction more generalizing held done with
  | nil => simp [receive]
  | cons m t ih =>
    obtain ⟨q, r, hq⟩ : ∃ q r, held ++ m :: t = q :: r := by cases held <;> exact ⟨_, _, rfl⟩
    obtain ⟨r', hr', hrr⟩ : ∃ r', held ++ [m] = q :: r' ∧ r = r' ++ t := by
      cases held with
      | nil => simp at hq; exact ⟨[], by simp [hq.1], by simp [hq.2]⟩
      | cons a l => simp at hq; exact ⟨l ++ [m], by simp [hq.1], by simp [← hq.2]⟩
    obtain ⟨hk, hl, hz⟩ := hs q (by rw [hq]; simp)
    have hbuf : held.flatMap raw ++ raw m = raw q ++ r'.flatMap raw := by
      have := congrArg (List.flatMap raw) hr'
      simpa using this
    have h1 := packet_progress_partial zeroAll p closes ⟨held.flatMap raw, done, true⟩ rfl (raw m) q (r'.flatMap raw) hbuf hk hl hz
    have h2 := ih (done ++ [q]) r' (fun x hx => hs x (by rw [hq, hrr]; exact List.mem_cons_of_mem _ hx))
    rw [hq, hrr]
    unfold receive at h2 ⊢
    rw [List.map_cons, List.foldlM_cons, h1, hc]
    simp only [Bool.not_false, Option.bind_eq_bind, Option.bind_some]
    rw [h2]
    simp

/-- **C139 fails: a heartbeat swallows the packet after it, once the server is behind** (with the reading of 0 as everything, which the library has). Two
packets arrive together, then a heartbeat, a packet without body, then another packet, each in a segment of its own: that last packet is never handed
over, whatever comes later; it is taken for the body of the heartbeat. -/
theorem heartbeat_swallows_fails (p : Proto) (closes : List Packet → Packet → Bool) (hc : ∀ d q, closes d q = false) (a b c : Packet)
    (hs : Sendable true p [a, b]) (cmd seq : UInt32) (hk : Known p cmd) :
    receive true p closes {} [raw a ++ raw b, raw ⟨cmd, seq, []⟩, raw c] = some ⟨[], [a, b, ⟨cmd, seq, raw c⟩], true⟩ := by
  obtain ⟨ka, la, za⟩ := hs a (by simp)
  obtain ⟨kb, lb, zb⟩ := hs b (by simp)
  have h1 := packet_progress_partial true p closes {} rfl (raw a ++ raw b) a (raw b) rfl ka la za
  have h2 := packet_progress_partial true p closes ⟨raw b, [a], true⟩ rfl (raw ⟨cmd, seq, []⟩) b (raw ⟨cmd, seq, []⟩) rfl kb lb zb
  have h3 : onTraffic true p closes ⟨raw ⟨cmd, seq, []⟩, [a, b], true⟩ (raw c) = some ⟨[], [a, b, ⟨cmd, seq, raw c⟩], true⟩ := by
    have hf := framing_fails p (fun _ _ => false) cmd seq hk (raw c)
    have hd : decodeAndCheckHeader true p (raw ⟨cmd, seq, []⟩ ++ raw c) = some (.packet cmd seq (raw c) []) := by
      simp only [receive, List.foldlM_cons, List.foldlM_nil, onTraffic, if_true, List.nil_append] at hf
      cases hx : decodeAndCheckHeader true p (raw ⟨cmd, seq, []⟩ ++ raw c) with
      | none => rw [hx] at hf; simp at hf
      | some d => rw [hx] at hf; cases d <;> simp_all
    simp only [onTraffic, if_true, hd, Option.map_some, hc]
    rfl
  simp only [receive, List.foldlM_cons, List.foldlM_nil, h1, hc, Bool.not_false, Option.bind_eq_bind, Option.bind_some]
  simp only [List.nil_append, h2, hc, Bool.not_false, Option.bind_some, List.cons_append, h3]
  rfl

example : Sendable true .cmpp [⟨4, 2, [1, 2, 3]⟩, ⟨4, 3, [4]⟩] ∧ Known .cmpp 8 := by
  refine ⟨?_, by decide⟩
  intro q hq
  simp only [List.mem_cons, List.not_mem_nil, or_false] at hq
  rcases hq with rfl | rfl <;> decide

/-- The hypotheses are met; three packets of which two arrive together with the first byte of the third, then the rest: two have been handed over. -/
example : Sendable true .cmpp (List.replicate 3 ⟨4, 2, [1, 2, 3]⟩) ∧
    [exampleSubmit ++ exampleSubmit ++ exampleSubmit.take 1, exampleSubmit.drop 1].flatten ++ [] =
      (List.replicate 3 (⟨4, 2, [1, 2, 3]⟩ : Packet)).flatMap raw ∧
    receive true .cmpp (fun _ _ => false) {} [exampleSubmit ++ exampleSubmit ++ exampleSubmit.take 1, exampleSubmit.drop 1] =
      some ⟨exampleSubmit, List.replicate 2 ⟨4, 2, [1, 2, 3]⟩, true⟩ ∧
    (List.range 3).map (arrived (List.replicate 3 ⟨4, 2, [1, 2, 3]⟩)
      [exampleSubmit ++ exampleSubmit ++ exampleSubmit.take 1, exampleSubmit.drop 1]) = [0, 2, 3] := by
  refine ⟨?_, by decide, by decide, by decide⟩
  intro q hq
  obtain rfl := List.eq_of_mem_replicate hq
  decide

end Gosms.Traffic
