import Verif.Model.Codec
import Verif.Lemmas.Utils
import Verif.Spec.Wire

/-!
# Lemmas about the shared shape of the encoders and decoders
-/

namespace Gosms

theorem trimStr_pad_slot (n : Nat) (s : Bytes) : trimStr (pad n s) = Spec.slot n s := by
  rw [trimStr_eq_takeWhile, pad, Spec.slot]
  generalize s.take n = t
  generalize n - s.length = k
  induction t with
  | nil =>
    cases k with
    | zero => rfl
    | succ k =>
      show List.takeWhile _ (zeros (k + 1)) = _
      rw [zeros, List.replicate_succ]; simp
  | cons a t ih =>
    by_cases ha : a = 0
    · subst ha; simp
    · simp only [List.cons_append]
      rw [List.takeWhile_cons_of_pos (by simpa using ha), List.takeWhile_cons_of_pos (by simpa using ha), ih]

theorem trimStr_slot_of_length {n : Nat} {b : Bytes} (h : b.length = n) : trimStr b = Spec.slot n b := by
  rw [← trimStr_pad_slot, pad_eq_self h]

namespace Rd

theorem reads_str {p n : Nat} (s : Bytes) : Reads p (str n) (pad n s) (Spec.slot n s) := by
  have := reads_bind (reads_slice (p := p) (length_pad n s)) (k := fun b => Rd.pure (trimStr b))
    (reads_pure (trimStr (pad n s)))
  rw [trimStr_pad_slot] at this
  simpa [bind_def, str, pure_def] using this

theorem needs_str {p : Nat} (n : Nat) : Needs p (str n) n := by
  have := needs_bind (needs_slice (p := p) n) (k := fun b => Rd.pure (trimStr b))
    (fun b => needs_pure (trimStr b))
  exact this

theorem reads_ite {α : Type} {p : Nat} {c : Prop} [Decidable c] {a b : Rd α} {oa ob : Bytes} {va vb : α}
    (h1 : c → Reads p a oa va) (h2 : ¬ c → Reads p b ob vb) :
    Reads p (if c then a else b) (if c then oa else ob) (if c then va else vb) := by
  by_cases h : c
  · simp only [if_pos h]; exact h1 h
  · simp only [if_neg h]; exact h2 h

theorem needs_ite {α : Type} {p : Nat} {c : Prop} [Decidable c] {a b : Rd α} {na nb : Nat}
    (h1 : c → Needs p a na) (h2 : ¬ c → Needs p b nb) :
    Needs p (if c then a else b) (if c then na else nb) := by
  by_cases h : c
  · simp only [if_pos h]; exact h1 h
  · simp only [if_neg h]; exact h2 h

/-- The final `pure`, when the value is given in another form. -/
theorem reads_done {α : Type} {p : Nat} {a b : α} (h : a = b) : Reads p (pure a) [] b := by
  subst h; exact reads_pure a

/-- Pure post-processing of a decoder result. -/
theorem run_map_length {α : Type} (r : Rd α) (f : Buf) : run r f = (r f 0).map (·.1) := rfl

/-- `uint32(len(frame))` and `len` reads -/
theorem reads_length_then {α : Type} {k : Nat → Rd α} {out : Bytes} {v : α} {len : Nat}
    (h : Reads 0 (k len) out v) (Q : Bytes) (hl : out.length ≤ len) :
    run (length >>= k) ⟨out ++ Q, len⟩ = some v := by
  have := run_of_reads h Q len hl
  simpa [run, bind_def, Rd.bind, length] using this

end Rd

theorem clamp_of_le {h : Header} (hl : 12 ≤ h.totalLength.toNat) : h.clamp = h := by
  unfold Header.clamp
  rw [if_neg]
  intro hh
  rw [UInt32.lt_iff_toNat_lt] at hh
  have : (12 : UInt32).toNat = 12 := rfl
  omega

theorem le_clamp (h : Header) : 12 ≤ h.clamp.totalLength.toNat := by
  unfold Header.clamp
  split
  · exact Nat.le_refl 12
  · rename_i hh
    rw [UInt32.lt_iff_toNat_lt] at hh
    have : (12 : UInt32).toNat = 12 := rfl
    omega

theorem clamp_commandId (h : Header) : h.clamp.commandId = h.commandId := by
  unfold Header.clamp; split <;> rfl
theorem clamp_sequenceId (h : Header) : h.clamp.sequenceId = h.sequenceId := by
  unfold Header.clamp; split <;> rfl

@[simp] theorem length_header12 (l c s : UInt32) : (Spec.header12 l c s).length = 12 := by
  simp [Spec.header12]
@[simp] theorem length_header20 (l c a b d : UInt32) : (Spec.header20 l c a b d).length = 20 := by
  simp [Spec.header20]

theorem header_encode (h : Header) :
    h.encode = some (Spec.header12 h.clamp.totalLength h.commandId h.sequenceId ++
      zeros (h.clamp.totalLength.toNat - 12)) := by
  have hle := le_clamp h
  simp only [Header.encode]
  have key := runW_layout [.seek 0, .str 4 (be32 h.clamp.totalLength),
         .seek 4, .str 4 (be32 h.clamp.commandId),
         .seek 8, .str 4 (be32 h.clamp.sequenceId)] [] h.clamp.totalLength.toNat
      (by simp [AllOk, WOp.Ok, WOp.out]) (by simp [layout, WOp.out]; omega)
  simp only [List.nil_append, List.length_nil] at key
  rw [key]
  simp [layout, WOp.out, Spec.header12, pad_eq_self, clamp_commandId, clamp_sequenceId]

/-- An encoder whose writes stay in order produces header, fields in order, zero padding. -/
theorem encodeWith_layout (h : Header) (ops : List WOp) (hok : AllOk ops 12)
    (hk : 12 + (layout ops 12).length ≤ h.totalLength.toNat) :
    encodeWith h ops = some (Spec.header12 h.totalLength h.commandId h.sequenceId ++ layout ops 12 ++
      zeros (h.totalLength.toNat - 12 - (layout ops 12).length)) := by
  unfold encodeWith
  rw [header_encode, clamp_of_le (by omega)]
  have := runW_layout ops (Spec.header12 h.totalLength h.commandId h.sequenceId)
    (h.totalLength.toNat - 12) (by simpa using hok) (by simp; omega)
  simp only [length_header12] at this
  simp [this]

/-- The same when the fields fill the frame exactly. -/
theorem encodeWith_exact (h : Header) (ops : List WOp) (body : Bytes) (hb : layout ops 12 = body)
    (hok : AllOk ops 12) (hk : h.totalLength.toNat = 12 + body.length) :
    encodeWith h ops = some (Spec.header12 h.totalLength h.commandId h.sequenceId ++ body) := by
  subst hb
  rw [encodeWith_layout h ops hok (by omega)]
  have : h.totalLength.toNat - 12 - (layout ops 12).length = 0 := by omega
  simp [this]

/-- Whatever is written, the frame has the length declared in its header. -/
theorem encodeWith_length {h : Header} {ops : List WOp} {f : Bytes} (he : encodeWith h ops = some f) :
    f.length = h.clamp.totalLength.toNat := by
  unfold encodeWith at he
  rw [header_encode] at he
  simp only [Option.bind_some, Option.map_eq_some_iff] at he
  obtain ⟨⟨f', i⟩, h1, h2⟩ := he
  have := runW_length h1
  have hle := le_clamp h
  simp only at h2
  subst h2
  simp only [List.length_append, length_header12, length_zeros] at this
  omega

theorem selfDelimiting_header12 {l c s : UInt32} {body : Bytes} (h : l.toNat = 12 + body.length) :
    Spec.SelfDelimiting (Spec.header12 l c s ++ body) := by
  have ht : (Spec.header12 l c s ++ body).take 4 = be32 l := by
    simp [Spec.header12, List.append_assoc]
  constructor
  · simp; omega
  · rw [ht, rd32_be32, List.length_append, length_header12, h]

theorem sclamp_of_le {h : SHeader} (hl : 20 ≤ h.packetLength.toNat) : h.clamp = h := by
  unfold SHeader.clamp
  rw [if_neg]
  intro hh
  rw [UInt32.lt_iff_toNat_lt] at hh
  have : (20 : UInt32).toNat = 20 := rfl
  omega

theorem le_sclamp (h : SHeader) : 20 ≤ h.clamp.packetLength.toNat := by
  unfold SHeader.clamp
  split
  · exact Nat.le_refl 20
  · rename_i hh
    rw [UInt32.lt_iff_toNat_lt] at hh
    have : (20 : UInt32).toNat = 20 := rfl
    omega

theorem sheader_encode (h : SHeader) :
    h.encode = some (Spec.header20 h.clamp.packetLength h.commandId h.seq0 h.seq1 h.seq2 ++
      zeros (h.clamp.packetLength.toNat - 20)) := by
  have hle := le_sclamp h
  have hc : h.clamp.commandId = h.commandId ∧ h.clamp.seq0 = h.seq0 ∧ h.clamp.seq1 = h.seq1 ∧
      h.clamp.seq2 = h.seq2 := by
    unfold SHeader.clamp; split <;> exact ⟨rfl, rfl, rfl, rfl⟩
  simp only [SHeader.encode]
  have key := runW_layout [.seek 0, .str 4 (be32 h.clamp.packetLength),
         .seek 4, .str 4 (be32 h.clamp.commandId),
         .seek 8, .str 4 (be32 h.clamp.seq0),
         .seek 12, .str 4 (be32 h.clamp.seq1),
         .seek 16, .str 4 (be32 h.clamp.seq2)] [] h.clamp.packetLength.toNat
      (by simp [AllOk, WOp.Ok, WOp.out]) (by simp [layout, WOp.out]; omega)
  simp only [List.nil_append, List.length_nil] at key
  rw [key]
  simp [layout, WOp.out, Spec.header20, pad_eq_self, hc]

theorem encodeWithS_layout (h : SHeader) (ops : List WOp) (hok : AllOk ops 20)
    (hk : 20 + (layout ops 20).length ≤ h.packetLength.toNat) :
    encodeWithS h ops = some (Spec.header20 h.packetLength h.commandId h.seq0 h.seq1 h.seq2 ++
      layout ops 20 ++ zeros (h.packetLength.toNat - 20 - (layout ops 20).length)) := by
  unfold encodeWithS
  rw [sheader_encode, sclamp_of_le (by omega)]
  have := runW_layout ops (Spec.header20 h.packetLength h.commandId h.seq0 h.seq1 h.seq2)
    (h.packetLength.toNat - 20) (by simpa using hok) (by simp; omega)
  simp only [length_header20] at this
  simp [this]

theorem encodeWithS_exact (h : SHeader) (ops : List WOp) (body : Bytes) (hb : layout ops 20 = body)
    (hok : AllOk ops 20) (hk : h.packetLength.toNat = 20 + body.length) :
    encodeWithS h ops = some (Spec.header20 h.packetLength h.commandId h.seq0 h.seq1 h.seq2 ++ body) := by
  subst hb
  rw [encodeWithS_layout h ops hok (by omega)]
  have : h.packetLength.toNat - 20 - (layout ops 20).length = 0 := by omega
  simp [this]

theorem encodeWithS_length {h : SHeader} {ops : List WOp} {f : Bytes} (he : encodeWithS h ops = some f) :
    f.length = h.clamp.packetLength.toNat := by
  unfold encodeWithS at he
  rw [sheader_encode] at he
  simp only [Option.bind_some, Option.map_eq_some_iff] at he
  obtain ⟨⟨f', i⟩, h1, h2⟩ := he
  have := runW_length h1
  have hle := le_sclamp h
  simp only at h2
  subst h2
  simp only [List.length_append, length_header20, length_zeros] at this
  omega

theorem selfDelimiting_header20 {l c s0 s1 s2 : UInt32} {body : Bytes} (h : l.toNat = 20 + body.length) :
    Spec.SelfDelimiting (Spec.header20 l c s0 s1 s2 ++ body) := by
  have ht : (Spec.header20 l c s0 s1 s2 ++ body).take 4 = be32 l := by
    simp [Spec.header20, List.append_assoc]
  constructor
  · simp; omega
  · rw [ht, rd32_be32, List.length_append, length_header20, h]

theorem drop_header12 (l c s : UInt32) (body : Bytes) : (Spec.header12 l c s ++ body).drop 12 = body := by
  rw [← length_header12 l c s, List.drop_left]
theorem drop_header20 (l c s0 s1 s2 : UInt32) (body : Bytes) :
    (Spec.header20 l c s0 s1 s2 ++ body).drop 20 = body := by
  rw [← length_header20 l c s0 s1 s2, List.drop_left]

end Gosms
