import Verif.Lemmas.Codec
import Verif.Lemmas.Cmpp

/-!
# C21: packet headers
-/

namespace Gosms
open Gosms.Rd

/-- CMPP and SMGP headers: `Encode` writes the 12 header bytes in network order followed by zeros; the
frame is as long as declared but at least 12 bytes; decoding the frame (with any spare capacity) and
`UnpackHead` give the three values back. -/
theorem header12_roundtrip (h : Header) (spare : Bytes) :
    ∃ (frame : Bytes) (len : UInt32),
      h.encode = some frame ∧
      len.toNat = max 12 h.totalLength.toNat ∧
      frame = Spec.header12 len h.commandId h.sequenceId ++ zeros (len.toNat - 12) ∧
      frame.length = max 12 h.totalLength.toNat ∧
      Header.decode ⟨frame ++ spare, frame.length⟩ = some ⟨len, h.commandId, h.sequenceId⟩ ∧
      unpackHead frame = (len, h.commandId, h.sequenceId) := by
  have hcl : h.clamp.totalLength.toNat = max 12 h.totalLength.toNat := by
    by_cases hl : 12 ≤ h.totalLength.toNat
    · rw [clamp_of_le hl]; omega
    · unfold Header.clamp
      rw [if_pos (by rw [UInt32.lt_iff_toNat_lt]; exact Nat.lt_of_not_le hl)]
      simp only [UInt32.reduceToNat]; omega
  have hle := le_clamp h
  refine ⟨_, h.clamp.totalLength, header_encode h, hcl, rfl, ?_, ?_, unpackHead_header12 _ _ _ _⟩
  · rw [List.length_append, length_header12, length_zeros]; omega
  · unfold Header.decode
    rw [List.append_assoc]
    refine run_of_reads (out := Spec.header12 _ _ _) ?_ _ _ (by simp)
    unfold Spec.header12
    rw [← List.append_nil (be32 h.sequenceId)]
    refine reads_bind (o1 := []) (reads_seek rfl) ?_
    refine reads_bind (reads_u32 _) ?_
    refine reads_bind (o1 := []) (reads_seek (by simp)) ?_
    refine reads_bind (reads_u32 _) ?_
    refine reads_bind (o1 := []) (reads_seek (by simp)) ?_
    refine reads_bind (reads_u32 _) ?_
    exact reads_pure _

example : (Header.mk 39 1 7).encode =
    some ([0,0,0,39, 0,0,0,1, 0,0,0,7] ++ zeros 27) := by decide
example : (Header.mk 0 1 7).encode = some [0,0,0,12, 0,0,0,1, 0,0,0,7] := by decide

/-- SGIP headers: the same with 20 bytes and three sequence words. -/
theorem header20_roundtrip (h : SHeader) (spare : Bytes) :
    ∃ (frame : Bytes) (len : UInt32),
      h.encode = some frame ∧
      len.toNat = max 20 h.packetLength.toNat ∧
      frame = Spec.header20 len h.commandId h.seq0 h.seq1 h.seq2 ++ zeros (len.toNat - 20) ∧
      frame.length = max 20 h.packetLength.toNat ∧
      SHeader.decode ⟨frame ++ spare, frame.length⟩ = some { h with packetLength := len } := by
  have hcl : h.clamp.packetLength.toNat = max 20 h.packetLength.toNat := by
    by_cases hl : 20 ≤ h.packetLength.toNat
    · rw [sclamp_of_le hl]; omega
    · unfold SHeader.clamp
      rw [if_pos (by rw [UInt32.lt_iff_toNat_lt]; exact Nat.lt_of_not_le hl)]
      simp only [UInt32.reduceToNat]; omega
  have hle := le_sclamp h
  refine ⟨_, h.clamp.packetLength, sheader_encode h, hcl, rfl, ?_, ?_⟩
  · rw [List.length_append, length_header20, length_zeros]; omega
  · unfold SHeader.decode
    rw [List.append_assoc]
    refine run_of_reads (out := Spec.header20 _ _ _ _ _) ?_ _ _ (by simp)
    unfold Spec.header20
    rw [← List.append_nil (be32 h.seq2)]
    refine reads_bind (o1 := []) (reads_seek rfl) ?_
    refine reads_bind (reads_u32 _) ?_
    refine reads_bind (o1 := []) (reads_seek (by simp)) ?_
    refine reads_bind (reads_u32 _) ?_
    refine reads_bind (o1 := []) (reads_seek (by simp)) ?_
    refine reads_bind (reads_u32 _) ?_
    refine reads_bind (o1 := []) (reads_seek (by simp)) ?_
    refine reads_bind (reads_u32 _) ?_
    refine reads_bind (o1 := []) (reads_seek (by simp)) ?_
    refine reads_bind (reads_u32 _) ?_
    exact reads_pure _

example : (SHeader.mk 0 2 7 8 9).encode =
    some [0,0,0,20, 0,0,0,2, 0,0,0,7, 0,0,0,8, 0,0,0,9] := by decide

/-- `UnpackHead` on fewer than 12 bytes yields zeros (the caller then waits for more). -/
theorem unpackHead_short (b : Bytes) (h : b.length < 12) : unpackHead b = (0, 0, 0) := by
  rw [unpackHead, if_neg (by omega)]

/-- `UnpackHead` reads the first twelve bytes as three big-endian numbers, whatever follows. -/
theorem unpackHead_value (b rest : Bytes) (h : b.length = 12) :
    Spec.header12 (unpackHead (b ++ rest)).1 (unpackHead (b ++ rest)).2.1 (unpackHead (b ++ rest)).2.2 = b := by
  unfold unpackHead Spec.header12
  rw [if_pos (by simp; omega)]
  simp only
  have h1 : ((b ++ rest).take 4) = b.take 4 := List.take_append_of_le_length (by omega)
  have h2 : ((b ++ rest).drop 4).take 4 = (b.drop 4).take 4 := by
    rw [List.drop_append_of_le_length (by omega), List.take_append_of_le_length (by simp; omega)]
  have h3 : ((b ++ rest).drop 8).take 4 = (b.drop 8).take 4 := by
    rw [List.drop_append_of_le_length (by omega), List.take_append_of_le_length (by simp; omega)]
  rw [h1, h2, h3, be32_rd32 (by simp; omega), be32_rd32 (by simp; omega), be32_rd32 (by simp; omega)]
  have e3 : (b.drop 8).take 4 = b.drop 8 := List.take_of_length_le (by simp; omega)
  have e2 : (b.drop 4).take 4 ++ b.drop 8 = b.drop 4 := by
    have := List.take_append_drop 4 (b.drop 4)
    rwa [List.drop_drop] at this
  rw [e3, e2, List.take_append_drop]

example : unpackHead ([0,0,0,12, 0,0,0,1, 0,0,0,7] ++ [9, 9]) = (12, 1, 7) := by decide

end Gosms
