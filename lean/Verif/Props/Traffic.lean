import Verif.Spec.Traffic
import Verif.Props.Names
import Verif.Props.Header

/-!
# C41, C42, C43: packet framing
-/

namespace Gosms.Traffic
open Spec (declared command IsPacket Cut raw Known)

theorem peek_pos {zeroAll : Bool} {buf : Bytes} {n : Nat} (h : 0 < n) : peek zeroAll buf n = buf.take n := by
  unfold peek; rw [if_neg (by omega)]

theorem discard_pos {zeroAll : Bool} {buf : Bytes} {n : Nat} (h : 0 < n) :
    discard zeroAll buf n = buf.drop n := by
  unfold discard; rw [if_neg (by omega)]

theorem unknown_iff (p : Proto) (cmd : UInt32) :
    ∃ name, commandName p cmd = some name ∧ ((ascii "UNKNOWN").isSuffixOf name = true ↔ ¬ Known p cmd) := by
  obtain ⟨name, h1, h2, h3⟩ := command_names p cmd
  refine ⟨name, h1, ?_⟩
  rw [List.isSuffixOf_iff_suffix]
  constructor
  · intro hu hk; exact h3 hk hu
  · intro hk
    apply Classical.byContradiction
    intro hu
    exact hk (List.mem_map.2 ⟨_, h2 hu, rfl⟩)

theorem rd32_toNat {b : Bytes} (h : b.length = 4) : (rd32 b).toNat = ofBE b := by
  have hlt := ofBE_lt b
  rw [h] at hlt
  unfold rd32
  rw [UInt32.toNat_ofNat']
  exact Nat.mod_eq_of_lt hlt

/-- The declared length and command as the header check reads them. -/
theorem unpackHead_read {b : Bytes} (h : 12 ≤ b.length) :
    (unpackHead (b.take 12)).1.toNat = declared b ∧ (unpackHead (b.take 12)).2.1 = command b := by
  have hl : (b.take 12).length = 12 := by rw [List.length_take]; omega
  unfold unpackHead declared command
  rw [if_pos (by omega)]
  constructor
  · dsimp only
    rw [rd32_toNat (by rw [List.length_take, hl]; rfl), List.take_take]
    rfl
  · dsimp only
    rw [List.drop_take, List.take_take]
    rfl

/-- What the header check answers, in terms of the bytes. -/
theorem decode_cases (zeroAll : Bool) (p : Proto) (b : Bytes) :
    (b.length < 12 ∧ decodeAndCheckHeader zeroAll p b = some .wait) ∨
    (12 ≤ b.length ∧ (declared b < 12 ∨ 5120 < declared b ∨ ¬ Known p (command b)) ∧
      decodeAndCheckHeader zeroAll p b = some .close) ∨
    (12 ≤ b.length ∧ 12 ≤ declared b ∧ declared b ≤ 5120 ∧ Known p (command b) ∧ b.length < declared b ∧
      decodeAndCheckHeader zeroAll p b = some .wait) ∨
    (12 ≤ b.length ∧ 12 ≤ declared b ∧ declared b ≤ 5120 ∧ Known p (command b) ∧ declared b ≤ b.length ∧
      decodeAndCheckHeader zeroAll p b = some (.packet (command b) (unpackHead (b.take 12)).2.2
        (peek zeroAll (b.drop 12) (declared b - 12)) (discard zeroAll (b.drop 12) (declared b - 12)))) := by
  by_cases hl : b.length < 12
  · left; exact ⟨hl, by unfold decodeAndCheckHeader; rw [if_pos hl]⟩
  right
  have hge : 12 ≤ b.length := by omega
  obtain ⟨e1, e2⟩ := unpackHead_read hge
  unfold decodeAndCheckHeader
  rw [if_neg hl, peek_pos (by omega)]
  simp only
  rw [e1]
  by_cases hd : declared b > 5120 ∨ declared b < 12
  · left
    exact ⟨hge, by omega, by rw [if_pos hd]⟩
  obtain ⟨name, hn, hu⟩ := unknown_iff p (command b)
  rw [if_neg hd, e2, hn, Option.map_some]
  by_cases hk : (ascii "UNKNOWN").isSuffixOf name = true
  · left
    exact ⟨hge, .inr (.inr (hu.1 hk)), by rw [if_pos hk]⟩
  have hkn : Known p (command b) := Classical.byContradiction fun hc => hk (hu.2 hc)
  rw [if_neg hk]
  right
  by_cases hp : declared b > b.length
  · left
    exact ⟨hge, by omega, by omega, hkn, by omega, by rw [if_pos hp]⟩
  · right
    exact ⟨hge, by omega, by omega, hkn, by omega, by rw [if_neg hp, discard_pos (by omega)]⟩

/-- The server never crashes on the header. -/
theorem receive_total (zeroAll : Bool) (p : Proto) (closes : List Packet → Packet → Bool) (segs : List Bytes)
    (c : Conn) : ∃ c', receive zeroAll p closes c segs = some c' := by
  induction segs generalizing c with
  | nil => exact ⟨c, rfl⟩
  | cons s segs ih =>
    have : ∃ c1, onTraffic zeroAll p closes c s = some c1 := by
      unfold onTraffic
      split
      · rcases decode_cases zeroAll p (c.buffer ++ s) with ⟨_, h⟩ | ⟨_, _, h⟩ | ⟨_, _, _, _, _, h⟩ |
          ⟨_, _, _, _, _, h⟩ <;> simp only [h, Option.map_some] <;> exact ⟨_, rfl⟩
      · exact ⟨c, rfl⟩
    obtain ⟨c1, h1⟩ := this
    obtain ⟨c2, h2⟩ := ih c1
    exact ⟨c2, by unfold receive at h2 ⊢; rw [List.foldlM_cons, h1]; exact h2⟩

theorem declared_append {a b : Bytes} (h : 4 ≤ a.length) : declared (a ++ b) = declared a := by
  unfold declared
  rw [List.take_append_of_le_length h]

/-- The bytes of the packet at the head of a buffer. -/
theorem raw_of_head {b : Bytes} (h12 : 12 ≤ b.length) (hd : 12 ≤ declared b) (hl : declared b ≤ b.length)
    (hm : declared b ≤ 5120) :
    raw ⟨command b, (unpackHead (b.take 12)).2.2, (b.drop 12).take (declared b - 12)⟩ = b.take (declared b) := by
  obtain ⟨e1, e2⟩ := unpackHead_read h12
  have hl12 : (b.take 12).length = 12 := by rw [List.length_take]; omega
  have hv := unpackHead_value (b.take 12) [] hl12
  rw [List.append_nil] at hv
  unfold raw
  dsimp only
  have hlen : 12 + ((b.drop 12).take (declared b - 12)).length = declared b := by
    rw [List.length_take, List.length_drop]; omega
  rw [hlen]
  have e3 : UInt32.ofNat (declared b) = (unpackHead (b.take 12)).1 := by
    apply UInt32.toNat_inj.1
    rw [e1, UInt32.toNat_ofNat']
    omega
  rw [e3, ← e2, hv]
  have : declared b = 12 + (declared b - 12) := by omega
  conv => rhs; rw [this, List.take_add]

theorem isPacket_take {b : Bytes} (h12 : 12 ≤ declared b) (hl : declared b ≤ b.length)
    (hm : declared b ≤ 5120) : IsPacket (b.take (declared b)) := by
  have hlen : (b.take (declared b)).length = declared b := by rw [List.length_take]; omega
  refine ⟨by omega, by omega, ?_⟩
  rw [hlen]
  unfold declared
  rw [List.take_take]
  congr 2
  have : 12 ≤ ofBE (b.take 4) := h12
  omega

/-- Cutting a stream at the declared lengths is unambiguous: of two ways to cut it, one is the beginning of
the other. -/
theorem cut_unique {s : Bytes} {ps ps' : List Bytes} {r r' : Bytes} (h : Cut s ps r) (h' : Cut s ps' r') :
    ps <+: ps' ∨ ps' <+: ps := by
  induction ps generalizing s ps' with
  | nil => left; exact List.nil_prefix
  | cons q ps ih =>
    cases ps' with
    | nil => right; exact List.nil_prefix
    | cons q' ps' =>
      obtain ⟨hp, e⟩ := h
      obtain ⟨hp', e'⟩ := h'
      have hq := hp q (by simp)
      have hq' := hp' q' (by simp)
      rw [List.flatten_cons, List.append_assoc] at e e'
      have d1 : declared s = q.length := by rw [e, declared_append (by have := hq.1; omega), hq.2.2]
      have d2 : declared s = q'.length := by rw [e', declared_append (by have := hq'.1; omega), hq'.2.2]
      have hqq : q = q' := (List.append_inj (e.symm.trans e') (by omega)).1
      have htail := (List.append_inj (e.symm.trans e') (by omega)).2
      subst hqq
      rcases ih (s := ps.flatten ++ r) ⟨fun x hx => hp x (by simp [hx]), rfl⟩
        ⟨fun x hx => hp' x (by simp [hx]), htail⟩ with h | h
      · left; exact (List.prefix_cons_inj q).2 h
      · right; exact (List.prefix_cons_inj q).2 h

/-- What holds of a connection after `seen` has arrived. -/
structure Framed (p : Proto) (seen : Bytes) (c : Conn) : Prop where
  cut : ∃ rest, Cut seen (c.handed.map raw) rest ∧ (c.isOpen = true → rest = c.buffer)
  known : ∀ q ∈ c.handed, Known p q.cmd

/-- Header-only packets do not occur in the stream. -/
def NoEmptyBody (stream : Bytes) : Prop := ∀ ps rest, Cut stream ps rest → ∀ q ∈ ps, 12 < q.length

theorem cut_append {s d : Bytes} {ps : List Bytes} {r : Bytes} (h : Cut s ps r) : Cut (s ++ d) ps (r ++ d) :=
  ⟨h.1, by rw [h.2, List.append_assoc]⟩

theorem framed_step (zeroAll : Bool) (p : Proto) (closes : List Packet → Packet → Bool) (c c' : Conn)
    (seen d : Bytes) (h : Framed p seen c) (hz : zeroAll = false ∨ NoEmptyBody (seen ++ d))
    (hs : onTraffic zeroAll p closes c d = some c') : Framed p (seen ++ d) c' := by
  obtain ⟨rest, hcut, hbuf⟩ := h.cut
  unfold onTraffic at hs
  split at hs
  · rename_i ho
    have hrest := hbuf ho
    subst hrest
    simp only at hs
    rcases decode_cases zeroAll p (c.buffer ++ d) with ⟨_, e⟩ | ⟨_, _, e⟩ | ⟨_, _, _, _, _, e⟩ |
        ⟨h12, hd, hm, hk, hl, e⟩ <;> rw [e] at hs <;>
      simp only [Option.map_some, Option.some.injEq] at hs <;> subst hs
    · exact ⟨⟨_, cut_append hcut, fun _ => rfl⟩, h.known⟩
    · exact ⟨⟨_, cut_append hcut, fun _ => rfl⟩, h.known⟩
    · exact ⟨⟨_, cut_append hcut, fun _ => rfl⟩, h.known⟩
    · have hpk := isPacket_take hd hl hm
      have hcut' : Cut (seen ++ d) (c.handed.map raw ++ [(c.buffer ++ d).take (declared (c.buffer ++ d))])
          ((c.buffer ++ d).drop (declared (c.buffer ++ d))) := by
        refine ⟨fun q hq => ?_, ?_⟩
        · rcases List.mem_append.1 hq with hq | hq
          · exact hcut.1 q hq
          · rw [List.mem_singleton.1 hq]; exact hpk
        · rw [List.flatten_append, List.append_assoc, List.flatten_singleton, List.take_append_drop,
            (cut_append hcut (d := d)).2]
      have hpos : zeroAll = false ∨ 0 < declared (c.buffer ++ d) - 12 := by
        rcases hz with hz | hz
        · exact .inl hz
        · have := hz _ _ hcut' ((c.buffer ++ d).take (declared (c.buffer ++ d))) (by simp)
          rw [List.length_take] at this
          exact .inr (by omega)
      have hpeek : peek zeroAll ((c.buffer ++ d).drop 12) (declared (c.buffer ++ d) - 12) =
          ((c.buffer ++ d).drop 12).take (declared (c.buffer ++ d) - 12) := by
        unfold peek
        split
        · rename_i h0
          rcases hpos with hz | hz
          · rw [h0, hz]; simp
          · omega
        · rfl
      have hdisc : discard zeroAll ((c.buffer ++ d).drop 12) (declared (c.buffer ++ d) - 12) =
          (c.buffer ++ d).drop (declared (c.buffer ++ d)) := by
        have e12 : 12 + (declared (c.buffer ++ d) - 12) = declared (c.buffer ++ d) := by omega
        unfold discard
        split
        · rename_i h0
          rcases hpos with hz | hz
          · rw [hz, if_neg (by simp)]
            congr 1
            omega
          · omega
        · rw [List.drop_drop, e12]
      rw [hpeek, hdisc]
      refine ⟨⟨(c.buffer ++ d).drop (declared (c.buffer ++ d)), ?_, fun _ => rfl⟩, ?_⟩
      · dsimp only
        rw [List.map_append, List.map_singleton, raw_of_head h12 hd hl hm]
        exact hcut'
      · intro q hq
        rcases List.mem_append.1 hq with hq | hq
        · exact h.known q hq
        · rw [List.mem_singleton.1 hq]; exact hk
  · rename_i ho
    rw [Option.some.injEq] at hs
    subst hs
    exact ⟨⟨_, cut_append hcut, fun hc => absurd hc ho⟩, h.known⟩

theorem noEmptyBody_prefix {s d : Bytes} (h : NoEmptyBody (s ++ d)) : NoEmptyBody s :=
  fun ps r hc => h ps (r ++ d) (cut_append hc)

theorem framed_run (zeroAll : Bool) (p : Proto) (closes : List Packet → Packet → Bool) (segs : List Bytes)
    (c c' : Conn) (seen : Bytes) (h : Framed p seen c)
    (hz : zeroAll = false ∨ NoEmptyBody (seen ++ segs.flatten))
    (hs : receive zeroAll p closes c segs = some c') : Framed p (seen ++ segs.flatten) c' := by
  induction segs generalizing c seen with
  | nil =>
    simp only [receive, List.foldlM_nil] at hs
    cases hs
    simpa using h
  | cons d segs ih =>
    rw [receive, List.foldlM_cons] at hs
    obtain ⟨c1, h1, h2⟩ := Option.bind_eq_some_iff.1 hs
    rw [List.flatten_cons, ← List.append_assoc] at hz ⊢
    exact ih c1 (seen ++ d) (framed_step zeroAll p closes c c1 seen d h
      (hz.imp id noEmptyBody_prefix) h1) hz h2

/-- C41. For every stream and every way it is cut into arrivals, and whatever the handlers answer: the packets
given to the handlers are, byte for byte, the first packets of the stream cut at the declared lengths, all of
12 to 5120 bytes and with known commands; while the connection is open, the bytes not yet handed out are
exactly its buffer.

Partial: assumes that gnet's `Peek(0)`/`Discard(0)` mean nothing, or else that no packet is a bare header
(see `framing_fails`). -/
theorem framing_partial (zeroAll : Bool) (p : Proto) (closes : List Packet → Packet → Bool)
    (segs : List Bytes) (hz : zeroAll = false ∨ NoEmptyBody segs.flatten) :
    ∃ c, receive zeroAll p closes {} segs = some c ∧
      (∃ rest, Cut segs.flatten (c.handed.map raw) rest ∧ (c.isOpen = true → rest = c.buffer)) ∧
      (∀ q ∈ c.handed, Known p q.cmd) := by
  obtain ⟨c, hc⟩ := receive_total zeroAll p closes segs {}
  have h0 : Framed p [] {} := ⟨⟨[], ⟨by simp, by simp⟩, fun _ => rfl⟩, by simp⟩
  have := framed_run zeroAll p closes segs {} c [] h0 (by simpa using hz) hc
  rw [List.nil_append] at this
  exact ⟨c, hc, this.cut, this.known⟩

/-- In particular two segmentations of the same stream never give the handlers different packets. -/
theorem framing_segmentation_partial (zeroAll : Bool) (p : Proto) (closes : List Packet → Packet → Bool)
    (segs segs' : List Bytes) (hsame : segs.flatten = segs'.flatten)
    (hz : zeroAll = false ∨ NoEmptyBody segs.flatten) :
    ∃ c c', receive zeroAll p closes {} segs = some c ∧ receive zeroAll p closes {} segs' = some c' ∧
      (c.handed.map raw <+: c'.handed.map raw ∨ c'.handed.map raw <+: c.handed.map raw) := by
  obtain ⟨c, h1, ⟨r, h2, _⟩, _⟩ := framing_partial zeroAll p closes segs hz
  obtain ⟨c', h3, ⟨r', h4, _⟩, _⟩ := framing_partial zeroAll p closes segs' (by rw [← hsame]; exact hz)
  rw [← hsame] at h4
  exact ⟨c, c', h1, h3, cut_unique h2 h4⟩

/-- A heartbeat and a submit-sized packet. -/
def exampleHeartbeat : Bytes := raw ⟨8, 1, []⟩
def exampleSubmit : Bytes := raw ⟨4, 2, [1, 2, 3]⟩

/-- A stream split in the middle of packets. -/
example : receive false .cmpp (fun _ _ => false) {}
    [exampleHeartbeat.take 5, exampleHeartbeat.drop 5 ++ exampleSubmit.take 3, exampleSubmit.drop 3] =
    some ⟨[], [⟨8, 1, []⟩, ⟨4, 2, [1, 2, 3]⟩], true⟩ := by decide

/-- With gnet's reading of 0, C41 fails for every bare-header packet (every CMPP or SMGP heartbeat, for
example) that arrives together with more data: the handlers get the following bytes as its body, and these
bytes are lost as packets. -/
theorem framing_fails (p : Proto) (closes : List Packet → Packet → Bool) (cmd seq : UInt32)
    (hk : Known p cmd) (more : Bytes) :
    receive true p closes {} [raw ⟨cmd, seq, []⟩ ++ more] =
      some ⟨[], [⟨cmd, seq, more⟩], !(closes [] ⟨cmd, seq, more⟩)⟩ := by
  have hlen : (raw ⟨cmd, seq, []⟩).length = 12 := rfl
  have e : ∀ d : Bytes, (raw ⟨cmd, seq, []⟩ ++ d) = Spec.header12 12 cmd seq ++ d := by
    intro d; simp [raw]
  have hh12 : (Spec.header12 12 cmd seq).length = 12 := rfl
  have hd : declared (Spec.header12 12 cmd seq ++ more) = 12 := by
    rw [declared_append (by omega)]; rfl
  have hc : command (Spec.header12 12 cmd seq ++ more) = cmd := by
    unfold command Spec.header12
    have l1 : (be32 12).length = 4 := rfl
    have l2 : (be32 cmd).length = 4 := length_be32 _
    rw [List.append_assoc, List.drop_left' l1, List.append_assoc, List.take_left' l2, rd32_be32]
  have hs : (unpackHead ((Spec.header12 12 cmd seq ++ more).take 12)).2.2 = seq := by
    rw [List.take_left' hh12]
    have := unpackHead_header12 12 cmd seq []
    rw [List.append_nil] at this
    rw [this]
  have hdec : decodeAndCheckHeader true p (Spec.header12 12 cmd seq ++ more) =
      some (.packet cmd seq more []) := by
    rcases decode_cases true p (Spec.header12 12 cmd seq ++ more) with ⟨h, _⟩ | ⟨_, h, _⟩ | ⟨_, _, _, _, h, _⟩ |
        ⟨_, _, _, _, _, h⟩
    · rw [List.length_append] at h; omega
    · rw [hd, hc] at h; rcases h with h | h | h
      · omega
      · omega
      · exact absurd hk h
    · rw [hd, List.length_append] at h; omega
    · rw [h, hd, hc, hs]
      simp [peek, discard, List.drop_left' hh12]
  rw [e]
  simp only [receive, List.foldlM_cons, List.foldlM_nil, onTraffic, if_true, List.nil_append, hdec,
    Option.map_some]
  rfl

/-- A heartbeat followed by a message: the message is swallowed. -/
example : receive true .cmpp (fun _ _ => false) {} [exampleHeartbeat ++ exampleSubmit] =
    some ⟨[], [⟨8, 1, exampleSubmit⟩], true⟩ ∧ Known .cmpp 8 := by decide

/-! ## C42 -/

/-- The header of a proper packet, whatever follows. -/
theorem decode_raw (zeroAll : Bool) (p : Proto) (q : Packet) (hk : Known p q.cmd)
    (hl : 12 + q.body.length ≤ 5120) (hz : zeroAll = false ∨ q.body ≠ []) (more : Bytes) :
    decodeAndCheckHeader zeroAll p (raw q ++ more) = some (.packet q.cmd q.seq q.body more) := by
  obtain ⟨cmd, seq, body⟩ := q
  dsimp only at *
  obtain ⟨l, hl32⟩ : ∃ l, l = UInt32.ofNat (12 + body.length) := ⟨_, rfl⟩
  have hraw : raw ⟨cmd, seq, body⟩ = Spec.header12 l cmd seq ++ body := by rw [hl32]; rfl
  have hlnat : l.toNat = 12 + body.length := by
    rw [hl32, UInt32.toNat_ofNat']; omega
  have l1 : (be32 l).length = 4 := length_be32 _
  have l2 : (be32 cmd).length = 4 := length_be32 _
  have l3 : (be32 seq).length = 4 := length_be32 _
  have hh12 : (Spec.header12 l cmd seq).length = 12 := by simp [Spec.header12, l1, l2, l3]
  have hd : declared (Spec.header12 l cmd seq ++ (body ++ more)) = 12 + body.length := by
    rw [declared_append (by omega), ← hlnat]
    unfold declared Spec.header12
    rw [List.take_left' l1, ← rd32_toNat l1, rd32_be32]
  have hc : command (Spec.header12 l cmd seq ++ (body ++ more)) = cmd := by
    unfold command Spec.header12
    rw [List.append_assoc, List.drop_left' l1, List.append_assoc, List.take_left' l2, rd32_be32]
  have hs : (unpackHead ((Spec.header12 l cmd seq ++ (body ++ more)).take 12)).2.2 = seq := by
    rw [List.take_left' hh12]
    have := unpackHead_header12 l cmd seq []
    rw [List.append_nil] at this
    rw [this]
  rw [hraw, List.append_assoc]
  rcases decode_cases zeroAll p (Spec.header12 l cmd seq ++ (body ++ more)) with ⟨h, _⟩ | ⟨_, h, _⟩ |
      ⟨_, _, _, _, h, _⟩ | ⟨_, _, _, _, _, h⟩
  · simp only [List.length_append] at h; omega
  · rw [hd, hc] at h; rcases h with h | h | h
    · omega
    · omega
    · exact absurd hk h
  · rw [hd] at h; simp only [List.length_append] at h; omega
  · rw [h, hd, hc, hs, List.drop_left' hh12]
    have e : 12 + body.length - 12 = body.length := by omega
    rw [e]
    rcases hz with hz | hz
    · subst hz
      unfold peek discard
      cases body with
      | nil => simp
      | cons a t => simp
    · have hpos : 0 < body.length := List.length_pos_iff.2 hz
      rw [peek_pos hpos, discard_pos hpos, List.take_left, List.drop_left]

/-- C42, the part that holds: when data arrive on an open connection and the buffer then begins with a
complete packet, that packet is given to the handlers at once - one packet per arrival. -/
theorem packet_progress_partial (zeroAll : Bool) (p : Proto) (closes : List Packet → Packet → Bool)
    (c : Conn) (ho : c.isOpen = true) (data : Bytes) (q : Packet) (more : Bytes)
    (hbuf : c.buffer ++ data = raw q ++ more) (hk : Known p q.cmd) (hl : 12 + q.body.length ≤ 5120)
    (hz : zeroAll = false ∨ q.body ≠ []) :
    onTraffic zeroAll p closes c data = some ⟨more, c.handed ++ [q], !(closes c.handed q)⟩ := by
  unfold onTraffic
  rw [if_pos ho]
  simp only [hbuf, decode_raw zeroAll p q hk hl hz more, Option.map_some]

/-- If every arrival is one packet (and the handlers do not close), all packets are processed. -/
theorem packet_per_arrival_partial (zeroAll : Bool) (p : Proto) (qs : List Packet)
    (hk : ∀ q ∈ qs, Known p q.cmd) (hl : ∀ q ∈ qs, 12 + q.body.length ≤ 5120) :
    receive zeroAll p (fun _ _ => false) {} (qs.map raw) = some ⟨[], qs, true⟩ := by
  have key : ∀ (done : List Packet), receive zeroAll p (fun _ _ => false) ⟨[], done, true⟩ (qs.map raw) =
      some ⟨[], done ++ qs, true⟩ := by
    induction qs with
    | nil => intro done; simp [receive]
    | cons q qs ih =>
      intro done
      have hstep : onTraffic zeroAll p (fun _ _ => false) ⟨[], done, true⟩ (raw q) =
          some ⟨[], done ++ [q], true⟩ := by
        unfold onTraffic
        rw [if_pos rfl]
        simp only [List.nil_append]
        by_cases hb : zeroAll = false ∨ q.body ≠ []
        · have := decode_raw zeroAll p q (hk q (by simp)) (hl q (by simp)) hb []
          rw [List.append_nil] at this
          rw [this]; rfl
        · have hq : q = ⟨q.cmd, q.seq, []⟩ := by
            cases q; simp at hb; simp [hb.2]
          have hz : zeroAll = true := by simp at hb; exact hb.1
          have := framing_fails p (fun _ _ => false) q.cmd q.seq (hk q (by simp)) []
          rw [List.append_nil, ← hq] at this
          simp only [receive, List.foldlM_cons, List.foldlM_nil] at this
          unfold onTraffic at this
          rw [if_pos rfl] at this
          simp only [List.nil_append] at this
          subst hz
          cases hdec : decodeAndCheckHeader true p (raw q) with
          | none => rw [hdec] at this; simp at this
          | some h =>
            rw [hdec] at this
            cases h with
            | wait => simp at this
            | close => simp at this
            | packet cmd seq body rest =>
              simp only [Option.map_some, Option.bind_eq_bind, Option.bind_some, Option.pure_def,
                Option.some.injEq, Conn.mk.injEq, List.nil_append, List.cons.injEq, Packet.mk.injEq] at this
              obtain ⟨rfl, ⟨⟨rfl, rfl, rfl⟩, _⟩, _⟩ := this
              simp [← hq]
      unfold receive at ih ⊢
      rw [List.map_cons, List.foldlM_cons, hstep]
      have := ih (fun x hx => hk x (by simp [hx])) (fun x hx => hl x (by simp [hx])) (done ++ [q])
      simpa using this
  simpa using key []

/-- C42 fails for every two packets that arrive together: the second one, although complete, stays in the
buffer. -/
theorem second_packet_waits_fails (zeroAll : Bool) (p : Proto) (q1 q2 : Packet) (hk : Known p q1.cmd)
    (hl : 12 + q1.body.length ≤ 5120) (hz : zeroAll = false ∨ q1.body ≠ []) :
    receive zeroAll p (fun _ _ => false) {} [raw q1 ++ raw q2] = some ⟨raw q2, [q1], true⟩ := by
  have := packet_progress_partial zeroAll p (fun _ _ => false) {} rfl (raw q1 ++ raw q2) q1 (raw q2)
    rfl hk hl hz
  simp only [receive, List.foldlM_cons, List.foldlM_nil, this]
  rfl

example : Known .cmpp 4 ∧ IsPacket exampleSubmit ∧
    receive true .cmpp (fun _ _ => false) {} [exampleSubmit ++ exampleSubmit] =
      some ⟨exampleSubmit, [⟨4, 2, [1, 2, 3]⟩], true⟩ := by decide

/-! ## C43 -/

/-- C43. On an open connection, with `b` the buffered bytes including the ones just arrived:
a declared length below 12 or above 5120, or an unknown command, closes the connection - nothing is consumed
and no handler runs; an incomplete header, or a proper header whose packet has not fully arrived, changes
nothing; a complete proper packet goes to the handlers. -/
theorem header_decision (zeroAll : Bool) (p : Proto) (closes : List Packet → Packet → Bool)
    (c : Conn) (ho : c.isOpen = true) (data b : Bytes) (hb : c.buffer ++ data = b) :
    (b.length < 12 → onTraffic zeroAll p closes c data = some ⟨b, c.handed, true⟩) ∧
    (12 ≤ b.length → (declared b < 12 ∨ 5120 < declared b ∨ ¬ Known p (command b)) →
      onTraffic zeroAll p closes c data = some ⟨b, c.handed, false⟩) ∧
    (12 ≤ b.length → 12 ≤ declared b → declared b ≤ 5120 → Known p (command b) → b.length < declared b →
      onTraffic zeroAll p closes c data = some ⟨b, c.handed, true⟩) ∧
    (12 ≤ b.length → 12 ≤ declared b → declared b ≤ 5120 → Known p (command b) → declared b ≤ b.length →
      ∃ rest q, onTraffic zeroAll p closes c data = some ⟨rest, c.handed ++ [q], !(closes c.handed q)⟩ ∧
        q.cmd = command b) := by
  obtain ⟨buf, handed, isOpen⟩ := c
  dsimp only at ho hb ⊢
  subst ho
  unfold onTraffic
  rw [if_pos rfl]
  simp only [hb]
  rcases decode_cases zeroAll p b with ⟨h1, e⟩ | ⟨h1, h2, e⟩ | ⟨h1, h2, h3, h4, h5, e⟩ |
      ⟨h1, h2, h3, h4, h5, e⟩ <;> rw [e] <;> simp only [Option.map_some]
  · refine ⟨fun _ => trivial, ?_, ?_, ?_⟩ <;> intro h <;> omega
  · refine ⟨fun h => by omega, fun _ _ => trivial, ?_, ?_⟩ <;> intro _ a1 a2 a3 <;>
      (rcases h2 with h2 | h2 | h2
       · omega
       · omega
       · exact absurd a3 h2)
  · refine ⟨fun h => by omega, fun _ h => ?_, fun _ _ _ _ _ => trivial, fun _ _ _ _ h => by omega⟩
    rcases h with h | h | h
    · omega
    · omega
    · exact absurd h4 h
  · refine ⟨fun h => by omega, fun _ h => ?_, fun _ _ _ _ h => by omega, fun _ _ _ _ _ => ⟨_, _, rfl, rfl⟩⟩
    rcases h with h | h | h
    · omega
    · omega
    · exact absurd h4 h

/-- One case of each kind: a length of 11, of 5121, an unknown command, a half packet. -/
example : (onTraffic true .cmpp (fun _ _ => false) {} (be32 11 ++ be32 4 ++ be32 1)).map Conn.isOpen = some false ∧
    (onTraffic true .cmpp (fun _ _ => false) {} (be32 5121 ++ be32 4 ++ be32 1)).map Conn.isOpen = some false ∧
    (onTraffic true .cmpp (fun _ _ => false) {} (be32 12 ++ be32 3 ++ be32 1)).map Conn.isOpen = some false ∧
    (onTraffic true .cmpp (fun _ _ => false) {} (be32 14 ++ be32 4 ++ be32 1)).map Conn.isOpen = some true := by
  decide

end Gosms.Traffic
