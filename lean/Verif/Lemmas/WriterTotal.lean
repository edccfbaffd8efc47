import Verif.Lemmas.Codec

/-!
# Encoders without bounds on their strings

Facts that hold whether or not the strings fit their slots: writes within the frame never panic, never
change the length of the frame and never touch what lies before the index.
-/

namespace Gosms

/-- How far a write moves the index. -/
def WOp.adv : WOp → Nat
  | .byte _ => 1
  | .str n _ => n
  | .free n _ => n
  | .seek _ => 0

/-- The write does not move the index elsewhere. -/
def WOp.NoSeek : WOp → Prop
  | .seek _ => False
  | _ => True

/-- The total advance. -/
def advance : List WOp → Nat
  | [] => 0
  | op :: ops => op.adv + advance ops

theorem advance_append (a b : List WOp) : advance (a ++ b) = advance a + advance b := by
  induction a with
  | nil => simp [advance]
  | cons op a ih => simp [advance, ih]; omega

theorem overwrite_take {f s : Bytes} {i k : Nat} (hk : k ≤ i) (hi : i ≤ f.length) :
    (overwrite f i s).take k = f.take k := by
  unfold overwrite
  rw [List.append_assoc, List.take_append_of_le_length (by simp; omega), List.take_take]
  congr 1; omega

theorem exec_total {op : WOp} {f : Bytes} {i k : Nat} (hn : op.NoSeek) (hi : i + op.adv ≤ f.length)
    (hk : k ≤ i) :
    ∃ f', op.exec f i = some (f', i + op.adv) ∧ f'.length = f.length ∧ f'.take k = f.take k := by
  cases op with
  | byte b =>
    have h : i < f.length := by simp only [WOp.adv] at hi; omega
    have he : WOp.exec (.byte b) f i = some (overwrite f i [b], i + 1) := if_pos h
    exact ⟨_, he, WOp.exec_length he, overwrite_take hk (by omega)⟩
  | str n s =>
    have h : i + n ≤ f.length := hi
    have he : WOp.exec (.str n s) f i = some (overwrite f i (s.take n), i + n) := if_pos h
    exact ⟨_, he, WOp.exec_length he, overwrite_take hk (by omega)⟩
  | free n s =>
    have h : i ≤ f.length := by simp only [WOp.adv] at hi; omega
    have he : WOp.exec (.free n s) f i = some (overwrite f i (s.take (f.length - i)), i + n) := if_pos h
    exact ⟨_, he, WOp.exec_length he, overwrite_take hk h⟩
  | seek j => cases hn

theorem runW_total (ops : List WOp) (f : Bytes) (i k : Nat) (hn : ∀ op ∈ ops, op.NoSeek)
    (hi : i + advance ops ≤ f.length) (hk : k ≤ i) :
    ∃ f', runW ops f i = some (f', i + advance ops) ∧ f'.length = f.length ∧ f'.take k = f.take k := by
  induction ops generalizing f i with
  | nil => exact ⟨f, rfl, rfl, rfl⟩
  | cons op ops ih =>
    simp only [advance] at hi ⊢
    obtain ⟨f1, h1, h2, h3⟩ := exec_total (hn op (by simp)) (by omega : i + op.adv ≤ f.length) hk
    obtain ⟨f2, h4, h5, h6⟩ := ih f1 (i + op.adv) (fun o ho => hn o (by simp [ho])) (by omega) (by omega)
    refine ⟨f2, ?_, by omega, by rw [h6, h3]⟩
    rw [runW, h1, Option.bind_some, ← Nat.add_assoc]
    exact h4

/-- An SGIP encoder whose slots fill the declared length never panics, and its frame is as long as
declared, whatever the strings are. -/
theorem encodeWithS_selfDelimiting (h : SHeader) (ops : List WOp) (hn : ∀ op ∈ ops, op.NoSeek)
    (hl : 20 + advance ops ≤ h.packetLength.toNat) :
    ∃ f, encodeWithS h (.seek 20 :: ops) = some f ∧ Spec.SelfDelimiting f := by
  unfold encodeWithS
  rw [sheader_encode, sclamp_of_le (by omega)]
  obtain ⟨f', h1, h2, h3⟩ := runW_total ops
    (Spec.header20 h.packetLength h.commandId h.seq0 h.seq1 h.seq2 ++ zeros (h.packetLength.toNat - 20))
    20 4 hn (by simp; omega) (by omega)
  refine ⟨f', ?_, ?_⟩
  · rw [Option.bind_some, runW]
    simp only [WOp.exec, Option.bind_some, h1, Option.map_some]
  · have hlen : f'.length = h.packetLength.toNat := by rw [h2]; simp; omega
    refine ⟨by omega, ?_⟩
    rw [h3, hlen]
    have : (Spec.header20 h.packetLength h.commandId h.seq0 h.seq1 h.seq2 ++
        zeros (h.packetLength.toNat - 20)).take 4 = be32 h.packetLength := by
      simp [Spec.header20, List.append_assoc]
    rw [this, rd32_be32]

/-- Two writes one after the other are one write. -/
theorem overwrite_append {f a b : Bytes} {i : Nat} (h : i + a.length ≤ f.length) :
    overwrite (overwrite f i a) (i + a.length) b = overwrite f i (a ++ b) := by
  have hi : (f.take i).length = i := by simp; omega
  have h1 : (overwrite f i a).take (i + a.length) = f.take i ++ a := by
    unfold overwrite
    rw [List.take_append_of_le_length (by simp; omega), List.take_of_length_le (by simp; omega)]
  have h2 : (overwrite f i a).drop (i + a.length + b.length) = f.drop (i + (a ++ b).length) := by
    unfold overwrite
    have hl : i + a.length = (f.take i ++ a).length := by simp; omega
    rw [← List.drop_drop, hl, List.drop_left, List.drop_drop]
    congr 1; simp; omega
  rw [overwrite, h1, h2]
  unfold overwrite
  simp

end Gosms
