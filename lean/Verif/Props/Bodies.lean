import Verif.Spec.Bodies
import Verif.Props.Traffic
import Verif.Model.Handlers

/-!
# C44: packet bodies and the event loop
-/

namespace Gosms
open Rd

/-! ## What a read on a frame without spare capacity needs -/

theorem isSome_byte {β : Type} (k : UInt8 → Rd β) (b : Bytes) (i : Nat) :
    ((Rd.byte >>= k) (Buf.exact b) i).isSome ↔ i < b.length ∧ (k (b.getD i 0) (Buf.exact b) (i + 1)).isSome := by
  simp only [bind_def, Rd.bind, Rd.byte, Buf.exact]
  by_cases h : i < b.length
  · rw [if_pos h]
    have e : b[i]? = some (b.getD i 0) := by
      rw [List.getD_eq_getElem?_getD, List.getElem?_eq_getElem h]; rfl
    rw [e]
    simp only [h, true_and]
  · rw [if_neg h]; simp [h]

theorem isSome_slice {β : Type} (n : Nat) (k : Bytes → Rd β) (b : Bytes) (i : Nat) :
    ((Rd.slice n >>= k) (Buf.exact b) i).isSome ↔
      i + n ≤ b.length ∧ (k ((b.drop i).take n) (Buf.exact b) (i + n)).isSome := by
  simp only [bind_def, Rd.bind, Rd.slice, Buf.exact]
  by_cases h : i + n ≤ b.length
  · rw [if_pos h]; simp only [h, true_and]
  · rw [if_neg h]; simp [h]

theorem isSome_str {β : Type} (n : Nat) (k : Bytes → Rd β) (b : Bytes) (i : Nat) :
    ((Rd.str n >>= k) (Buf.exact b) i).isSome ↔
      i + n ≤ b.length ∧ (k (trimStr ((b.drop i).take n)) (Buf.exact b) (i + n)).isSome := by
  simp only [Rd.str, bind_def, Rd.bind, pure_def, Rd.pure, Rd.slice, Buf.exact]
  by_cases h : i + n ≤ b.length
  · rw [if_pos h]; simp only [h, true_and]
  · rw [if_neg h]; simp [h]

theorem isSome_u32 {β : Type} (k : UInt32 → Rd β) (b : Bytes) (i : Nat) :
    ((Rd.u32 >>= k) (Buf.exact b) i).isSome ↔
      i + 4 ≤ b.length ∧ (k (rd32 ((b.drop i).take 4)) (Buf.exact b) (i + 4)).isSome := by
  simp only [Rd.u32, bind_def, Rd.bind, Rd.pure, Rd.slice, Buf.exact]
  by_cases h : i + 4 ≤ b.length
  · rw [if_pos h]; simp only [h, true_and]
  · rw [if_neg h]; simp [h]

theorem isSome_u64 {β : Type} (k : UInt64 → Rd β) (b : Bytes) (i : Nat) :
    ((Rd.u64 >>= k) (Buf.exact b) i).isSome ↔
      i + 8 ≤ b.length ∧ (k (rd64 ((b.drop i).take 8)) (Buf.exact b) (i + 8)).isSome := by
  simp only [Rd.u64, bind_def, Rd.bind, Rd.pure, Rd.slice, Buf.exact]
  by_cases h : i + 8 ≤ b.length
  · rw [if_pos h]; simp only [h, true_and]
  · rw [if_neg h]; simp [h]

theorem isSome_u32Tail {β : Type} (k : UInt32 → Rd β) (b : Bytes) (i : Nat) :
    ((Rd.u32Tail >>= k) (Buf.exact b) i).isSome ↔
      i + 4 ≤ b.length ∧ (k (rd32 ((b.drop i).take 4)) (Buf.exact b) (i + 4)).isSome := by
  simp only [Rd.u32Tail, Rd.u32, bind_def, Rd.bind, Rd.pure, Rd.slice, Buf.exact]
  by_cases h : i + 4 ≤ b.length
  · rw [if_pos h, if_pos h]; simp only [h, true_and]
  · rw [if_neg h]; simp [h]

theorem isSome_seek {β : Type} (j : Nat) (k : Unit → Rd β) (f : Buf) (i : Nat) :
    ((Rd.seek j >>= k) f i).isSome ↔ (k () f j).isSome := Iff.rfl

theorem isSome_length {β : Type} (k : Nat → Rd β) (f : Buf) (i : Nat) :
    ((Rd.length >>= k) f i).isSome ↔ (k f.len f i).isSome := Iff.rfl

theorem isSome_lift {α β : Type} (o : Option α) (k : α → Rd β) (f : Buf) (i : Nat) :
    ((Rd.lift o >>= k) f i).isSome ↔ ∃ a, o = some a ∧ (k a f i).isSome := by
  simp only [bind_def, Rd.bind, Rd.lift]
  cases o <;> simp

theorem isSome_purebind {α β : Type} (a : α) (k : α → Rd β) (f : Buf) (i : Nat) :
    (((pure a : Rd α) >>= k) f i).isSome ↔ (k a f i).isSome := Iff.rfl

theorem isSome_pure {α : Type} (a : α) (f : Buf) (i : Nat) : ((pure a : Rd α) f i).isSome ↔ True := by
  simp [pure_def, Rd.pure]

theorem isSome_bind_assoc {α β γ : Type} (r : Rd α) (k : α → Rd β) (k' : β → Rd γ) (f : Buf) (i : Nat) :
    (((r >>= k) >>= k') f i).isSome ↔ ((r >>= fun a => k a >>= k') f i).isSome := by
  simp only [bind_def, Rd.bind]
  cases r f i <;> rfl

theorem isSome_tlvTail {β : Type} (g : Option TlvList → β) (b : Bytes) (i : Nat) :
    ((Smgp.tlvTail (Buf.exact b).len >>= fun t => (pure (g t) : Rd β)) (Buf.exact b) i).isSome ↔
      (i ≤ b.length ∨ b.length + 7 ≤ i) := by
  simp only [bind_def, Rd.bind, Smgp.tlvTail, Rd.tail, Rd.slice, Buf.exact, pure_def, Rd.pure]
  by_cases h1 : i ≤ b.length
  · rw [if_pos (by omega), if_pos h1, if_pos (by omega)]
    simp [h1]
  · by_cases h2 : b.length + 7 ≤ i
    · rw [if_neg (by omega)]; simp [h2]
    · rw [if_pos (by omega), if_neg (by omega)]
      simp; omega

theorem isSome_run {α : Type} (r : Rd α) (f : Buf) : (Rd.run r f).isSome ↔ (r f 0).isSome := by
  simp [Rd.run]

theorem times_str (n m : Nat) (b : Bytes) (i : Nat) :
    (i + m * n ≤ b.length → ∃ v, (Rd.times (Rd.str n) m) (Buf.exact b) i = some (v, i + m * n)) ∧
    (0 < n → 0 < m → b.length < i + m * n → (Rd.times (Rd.str n) m) (Buf.exact b) i = none) := by
  induction m generalizing i with
  | zero =>
    refine ⟨fun _ => ⟨[], by simp [Rd.times, pure_def, Rd.pure]⟩, fun _ h => by omega⟩
  | succ m ih =>
    rw [Nat.succ_mul]
    constructor
    · intro h
      obtain ⟨v, hv⟩ := (ih (i + n)).1 (by omega)
      refine ⟨trimStr ((b.drop i).take n) :: v, ?_⟩
      have h1 : Rd.str n (Buf.exact b) i = some (trimStr ((b.drop i).take n), i + n) := by
        simp only [bind_def, Rd.bind, Rd.str, Rd.slice, pure_def, Rd.pure, Buf.exact]
        rw [if_pos (by omega)]
      have e : i + n + m * n = i + (m * n + n) := by omega
      simp only [Rd.times, bind_def, Rd.bind, h1, hv, pure_def, Rd.pure, e]
    · intro hn _ h
      by_cases h1 : i + n ≤ b.length
      · have h1' : Rd.str n (Buf.exact b) i = some (trimStr ((b.drop i).take n), i + n) := by
          simp only [bind_def, Rd.bind, Rd.str, Rd.slice, pure_def, Rd.pure, Buf.exact]
          rw [if_pos (by omega)]
        have hm : 0 < m := by
          rcases Nat.eq_zero_or_pos m with h0 | h0
          · subst h0; omega
          · exact h0
        have := (ih (i + n)).2 hn hm (by omega)
        simp only [Rd.times, bind_def, Rd.bind, h1', this]
      · have h1' : Rd.str n (Buf.exact b) i = none := by
          simp only [bind_def, Rd.bind, Rd.str, Rd.slice, pure_def, Rd.pure, Buf.exact]
          rw [if_neg (by omega)]
        simp only [Rd.times, bind_def, Rd.bind, h1']

theorem isSome_times {β : Type} (n m : Nat) (hn : 0 < n) (k : List Bytes → Rd β) (b : Bytes) (i : Nat)
    (hk : ∀ v v' j, (k v (Buf.exact b) j).isSome ↔ (k v' (Buf.exact b) j).isSome) (hi : i ≤ b.length) :
    ((Rd.times (Rd.str n) m >>= k) (Buf.exact b) i).isSome ↔
      i + n * m ≤ b.length ∧ (k [] (Buf.exact b) (i + n * m)).isSome := by
  simp only [bind_def, Rd.bind]
  rw [Nat.mul_comm n m]
  by_cases h : i + m * n ≤ b.length
  · obtain ⟨v, hv⟩ := (times_str n m b i).1 h
    rw [hv]
    simp only [h, true_and]
    exact hk _ _ _
  · have hm : 0 < m := by
      rcases Nat.eq_zero_or_pos m with h0 | h0
      · subst h0; omega
      · exact h0
    rw [(times_str n m b i).2 hn hm (by omega)]
    simp [h]

theorem decodedContent_isSome (c : Bytes) : (∃ a, Cmpp.decodedContent c = some a) ↔ Spec.ContentOk c := by
  unfold Cmpp.decodedContent Spec.ContentOk
  match c with
  | [] => simp
  | [a] =>
    by_cases h : a = 5
    · subst h; simp
    · simp [h]
  | [a, b] =>
    by_cases h : a = 5
    · subst h
      by_cases h2 : b = 0
      · subst h2; simp
      · simp [h2]
    · simp [h]
  | a :: b :: d :: r =>
    by_cases h : a = 5
    · subst h
      by_cases h2 : b = 0
      · subst h2
        by_cases h3 : d = 3
        · subst h3
          simp
        · simp [h3]; intro h; exact absurd h.symm h3
      · simp [h2]; intro h; exact absurd h.symm h2
    · simp [h]; intro h'; exact absurd h'.symm h

theorem strippedContent_isSome (c : Bytes) : (∃ a, Smgp.strippedContent c = some a) ↔ Spec.ContentOk c := by
  rw [← decodedContent_isSome]
  unfold Cmpp.decodedContent Smgp.strippedContent
  match c with
  | [] => simp
  | [a] => by_cases h : a = 5 <;> simp [h]
  | [a, b] => by_cases h : a = 5 <;> by_cases h2 : b = 0 <;> simp [h, h2]
  | a :: b :: d :: r =>
    by_cases h : a = 5 <;> by_cases h2 : b = 0 <;> by_cases h3 : d = 3 <;> simp [h, h2, h3]

namespace Cmpp

theorem connect_needs (seq : UInt32) (body : Bytes) :
    (Connect.decode seq (Buf.exact body)).isSome ↔ 27 ≤ body.length := by
  unfold Connect.decode
  simp only [isSome_run, isSome_seek, isSome_str, isSome_slice, isSome_byte, isSome_u32, isSome_pure, and_true]
  omega

theorem deliverRsp_needs (cmd seq : UInt32) (body : Bytes) :
    (Rsp.decode cmd 0 seq (Buf.exact body)).isSome ↔ 9 ≤ body.length := by
  unfold Rsp.decode
  have : v3 0 = false := by decide
  simp only [isSome_run, isSome_seek, isSome_length, isSome_u64, this, if_false, Bool.false_eq_true,
    isSome_bind_assoc, isSome_byte, isSome_purebind, isSome_pure, and_true]
  omega

theorem submit_needs (v : UInt8) (seq : UInt32) (body : Bytes) :
    (Submit.decode v seq (Buf.exact body)).isSome ↔ Spec.CmppSubmitBody (v3 v) body := by
  unfold Submit.decode Spec.CmppSubmitBody
  cases hv : v3 v
  · simp only [isSome_run, isSome_seek, isSome_length, isSome_str, isSome_slice, isSome_byte,
      isSome_lift, isSome_purebind, isSome_pure, if_false, Bool.false_eq_true, and_true, Nat.reduceAdd,
      decodedContent_isSome, UInt8.toNat_mul]
    have e21 : (21 : UInt8).toNat = 21 := rfl
    rw [e21]
    generalize List.getD body 116 0 = D
    rw [Nat.mul_comm D.toNat 21]
    generalize 21 * D.toNat % 2 ^ 8 = l
    have : ∀ x, 117 + x + 0 = 117 + x := fun x => rfl
    simp only [Nat.add_zero]
    generalize List.getD body (117 + l) 0 = L
    by_cases hc : Spec.ContentOk (List.take L.toNat (List.drop (117 + l + 1) body))
    · simp only [hc, and_true]; omega
    · simp only [hc, and_false]
  · simp only [isSome_run, isSome_seek, isSome_length, isSome_str, isSome_slice, isSome_byte,
      isSome_lift, isSome_pure, if_true, and_true, Nat.reduceAdd, exists_and_right,
      decodedContent_isSome, Nat.shiftLeft_eq, Nat.reducePow]
    generalize List.getD body 128 0 = D
    rw [Nat.mul_comm D.toNat 32]
    generalize 32 * D.toNat = l
    generalize List.getD body (129 + l + 1) 0 = L
    by_cases hc : Spec.ContentOk (List.take L.toNat (List.drop (129 + l + 1 + 1) body))
    · simp only [hc, and_true, true_and]; omega
    · simp only [hc, and_false, false_and]
end Cmpp

namespace Sgip
theorem bind_needs (seq : UInt32) (body : Bytes) :
    (Bind.decode seq (Buf.exact body)).isSome ↔ 41 ≤ body.length := by
  unfold Bind.decode
  simp only [isSome_run, isSome_length, isSome_str, isSome_byte, isSome_u32, isSome_pure, and_true]
  omega

theorem unbind_needs (cmd seq : UInt32) (body : Bytes) :
    (unbindDecode cmd seq (Buf.exact body)).isSome ↔ 8 ≤ body.length := by
  unfold unbindDecode
  simp only [isSome_run, isSome_seek, isSome_u32, isSome_pure, and_true]
  omega

theorem submit_needs (seq : UInt32) (body : Bytes) :
    (Submit.decode seq (Buf.exact body)).isSome ↔ Spec.SgipSubmitBody body := by
  unfold Submit.decode Spec.SgipSubmitBody
  simp only [isSome_run, isSome_length, isSome_str, isSome_byte, isSome_u32Tail, Nat.reduceAdd]
  by_cases h50 : 50 < body.length
  · rw [isSome_times _ _ (by omega) _ _ _ (by
      intro v v' j
      simp only [isSome_str, isSome_byte, isSome_u32Tail, isSome_slice, isSome_lift, isSome_pure]) (by omega)]
    simp only [isSome_str, isSome_byte, isSome_u32Tail, isSome_slice, isSome_lift, isSome_pure, and_true,
      decodedContent_isSome]
    simp only [Nat.add_assoc, Nat.reduceAdd]
    generalize (List.getD body 50 0).toNat = D
    by_cases hl : 51 + (21 * D + 72) ≤ body.length
    · rw [Traffic.rd32_toNat (by rw [List.length_take, List.length_drop]; omega)]
      generalize ofBE (List.take 4 (List.drop (51 + (21 * D + 68)) body)) = L
      by_cases hc : Spec.ContentOk (List.take L (List.drop (51 + (21 * D + 72)) body))
      · simp only [hc, and_true]; omega
      · simp only [hc, and_false]
    · constructor
      · intro h; exfalso; omega
      · intro h; exfalso; omega
  · constructor
    · intro h; exfalso; omega
    · intro h; exfalso; omega
end Sgip

namespace Smgp
theorem login_needs (seq : UInt32) (body : Bytes) :
    (Login.decode seq (Buf.exact body)).isSome ↔ 30 ≤ body.length := by
  unfold Login.decode
  simp only [isSome_run, isSome_seek, isSome_length, isSome_slice, isSome_byte, isSome_u32, isSome_pure, and_true]
  omega

theorem deliverRsp_needs (cmd seq : UInt32) (v : UInt8) (body : Bytes) :
    (Rsp.decode cmd v seq (Buf.exact body)).isSome ↔ 14 ≤ body.length := by
  unfold Rsp.decode
  simp only [isSome_run, isSome_seek, isSome_length, isSome_slice, isSome_u32, isSome_pure, and_true]
  omega

theorem submit_needs (gbDec : Bytes → Option Bytes) (v : UInt8) (seq : UInt32) (body : Bytes) :
    (Submit.decode gbDec v seq (Buf.exact body)).isSome ↔ Spec.SmgpSubmitBody body := by
  unfold Submit.decode Spec.SmgpSubmitBody
  simp only [isSome_run, isSome_length, isSome_str, isSome_byte, Nat.reduceAdd]
  by_cases h50 : 104 < body.length
  · rw [isSome_times _ _ (by omega) _ _ _ (by
      intro v v' j
      simp only [isSome_str, isSome_byte, isSome_slice, isSome_lift, isSome_tlvTail, isSome_pure]) (by omega)]
    simp only [isSome_str, isSome_byte, isSome_slice, isSome_lift, isSome_tlvTail, isSome_pure, and_true,
      strippedContent_isSome, exists_and_right]
    simp only [Nat.add_assoc, Nat.reduceAdd]
    generalize (List.getD body 104 0).toNat = D
    generalize (List.getD body (105 + 21 * D) 0).toNat = L
    by_cases hc : Spec.ContentOk (List.take L (List.drop (105 + (21 * D + 1)) body))
    · simp only [hc, and_true, true_and]; omega
    · simp only [hc, and_false, false_and]
  · constructor
    · intro h; exfalso; omega
    · intro h; exfalso; omega
end Smgp

namespace Handlers

theorem decodes_iff (gbDec : Bytes → Option Bytes) (ver : UInt8) (seq : UInt32) (body : Bytes) (p : Proto)
    (k : Kind) : decodes gbDec ver seq body p k = true ↔ Spec.BodyComplete (Cmpp.v3 ver) body p k := by
  cases p <;> cases k <;> simp only [decodes, Spec.BodyComplete]
  · exact Cmpp.submit_needs ver seq body
  · simp [Cmpp.activeTestDecode]
  · simp [Cmpp.activeTestRspDecode]
  · exact Cmpp.deliverRsp_needs _ seq body
  · exact Cmpp.connect_needs seq body
  · simp [Cmpp.terminateDecode]
  · simp [Cmpp.terminateRspDecode]
  · exact Sgip.submit_needs seq body
  · exact Sgip.bind_needs seq body
  · exact Sgip.unbind_needs _ seq body
  · exact Sgip.unbind_needs _ seq body
  · exact Smgp.submit_needs gbDec ver seq body
  · simp [Smgp.activeTestDecode]
  · simp [Smgp.activeTestRspDecode]
  · exact Smgp.deliverRsp_needs _ seq _ body
  · exact Smgp.login_needs seq body
  · simp [Smgp.exitDecode]
  · simp [Smgp.exitRspDecode]

theorem executeChain_cases (gbDec : Bytes → Option Bytes) (p : Proto) (stat : Stat) (ver : UInt8)
    (cmd seq : UInt32) (body : Bytes) (ch : List (UInt32 × Kind)) :
    (cmd ∉ ch.map Prod.fst ∧ executeChain gbDec p stat ver cmd seq body ch = .ignored) ∨
    (∃ k, (cmd, k) ∈ ch ∧ executeChain gbDec p stat ver cmd seq body ch = handle gbDec p stat ver k seq body) := by
  induction ch with
  | nil => left; exact ⟨by simp, rfl⟩
  | cons a ch ih =>
    obtain ⟨c, k⟩ := a
    by_cases h : c = cmd
    · right
      exact ⟨k, by simp [h], by simp [executeChain, h]⟩
    · rw [executeChain, if_pos h]
      rcases ih with ⟨h1, h2⟩ | ⟨k', h1, h2⟩
      · left
        refine ⟨?_, h2⟩
        rw [List.map_cons, List.mem_cons]
        rintro (h' | h')
        · exact h h'.symm
        · exact h1 h'
      · right
        exact ⟨k', by simp [h1], h2⟩

theorem chain_functional (p : Proto) (cmd : UInt32) (k k' : Kind) (h : (cmd, k) ∈ chain p)
    (h' : (cmd, k') ∈ chain p) : k = k' := by
  have : ∀ p, ∀ a ∈ chain p, ∀ b ∈ chain p, a.1 = b.1 → a.2 = b.2 := by
    intro p; cases p <;> decide
  exact this p _ h _ h' rfl

/-- What the event loop does with a packet for a handler. -/
theorem serve_handled (gbDec : Bytes → Option Bytes) (p : Proto) (stat : Stat) (ver : UInt8) (cmd seq : UInt32)
    (body : Bytes) (k : Kind) (hk : (cmd, k) ∈ chain p) :
    serve gbDec p stat ver cmd seq body = handle gbDec p stat ver k seq body := by
  rcases executeChain_cases gbDec p stat ver cmd seq body (chain p) with ⟨h, _⟩ | ⟨k', h1, h2⟩
  · exact absurd (List.mem_map.2 ⟨_, hk, rfl⟩) h
  · rw [chain_functional p cmd k k' hk h1]
    exact h2

/-- C44, the part that holds, and exactly how it fails: whatever the packet, the event loop panics if and only if
the packet is for a handler that gets to decode it (a login, or any packet of a logged-in session) and its body
is incomplete. In particular no complete body makes a decoder panic. -/
theorem event_loop_crash_partial (gbDec : Bytes → Option Bytes) (p : Proto) (stat : Stat) (ver : UInt8)
    (cmd seq : UInt32) (body : Bytes) :
    serve gbDec p stat ver cmd seq body = .crash ↔
      ∃ k, (cmd, k) ∈ chain p ∧ (k = .login ∨ stat = .login) ∧ ¬ Spec.BodyComplete (Cmpp.v3 ver) body p k := by
  rcases executeChain_cases gbDec p stat ver cmd seq body (chain p) with ⟨h1, h2⟩ | ⟨k, h1, _⟩
  · constructor
    · intro h; rw [serve, h2] at h; cases h
    · rintro ⟨k, hk, _⟩; exact absurd (List.mem_map.2 ⟨_, hk, rfl⟩) h1
  · rw [serve_handled gbDec p stat ver cmd seq body k h1, handle]
    have hdec := decodes_iff gbDec ver seq body p k
    constructor
    · intro h
      refine ⟨k, h1, ?_⟩
      split at h
      · cases h
      · rename_i hc
        refine ⟨by
          by_cases hl : k = .login
          · exact .inl hl
          · by_cases hs : stat = .login
            · exact .inr hs
            · exact absurd ⟨hl, hs⟩ hc, ?_⟩
        split at h
        · cases h
        · rename_i hd
          exact fun hb => hd (hdec.2 hb)
    · rintro ⟨k', hk', hl, hb⟩
      have := chain_functional p cmd k k' h1 hk'
      subst this
      rw [if_neg (by
        rintro ⟨h1, h2⟩
        rcases hl with h | h
        · exact h1 h
        · exact h2 h), if_neg (fun hd => hb (hdec.1 hd))]

/-- A complete version-2 CMPP submit (content "a") is decoded; the same with an empty content crashes the
server, and so does any submit of 3 bytes. -/
def exampleSubmitBody (content : Bytes) : Bytes :=
  List.replicate 116 0 ++ [1] ++ List.replicate 21 0 ++ [UInt8.ofNat content.length] ++ content

set_option maxRecDepth 8000 in
example : Spec.BodyComplete false (exampleSubmitBody [97]) .cmpp .submit ∧
    serve some .cmpp .login 0x20 4 1 (exampleSubmitBody [97]) = .task .submit ∧
    serve some .cmpp .login 0x20 4 1 (exampleSubmitBody []) = .crash ∧
    serve some .cmpp .login 0x20 4 1 [1, 2, 3] = .crash := by
  refine ⟨?_, by decide, by decide, by decide⟩
  refine ⟨by decide, by decide, by decide, by decide, by decide, ?_⟩
  intro h
  revert h
  decide

/-- C44 fails, before any login and for every protocol: every login packet with a body shorter than the login
body - it passes the header check whatever the buffering - makes the event loop panic. -/
theorem login_body_crashes_fails (gbDec : Bytes → Option Bytes) (zeroAll : Bool) (p : Proto) (ver : UInt8)
    (seq : UInt32) (body : Bytes) (hshort : body.length < Spec.loginSize p) :
    Traffic.receive zeroAll p (fun _ _ => false) {} [Spec.raw ⟨Spec.loginCommand p, seq, body⟩] =
      some ⟨[], [⟨Spec.loginCommand p, seq, body⟩], true⟩ ∧
    serve gbDec p .connect ver (Spec.loginCommand p) seq body = .crash := by
  constructor
  · have := Traffic.packet_per_arrival_partial zeroAll p [⟨Spec.loginCommand p, seq, body⟩]
      (by
        intro q hq
        rw [List.mem_singleton.1 hq]
        show Spec.Known p (Spec.loginCommand p)
        cases p <;> decide)
      (by
        intro q hq
        rw [List.mem_singleton.1 hq]
        have : Spec.loginSize p ≤ 41 := by cases p <;> decide
        show 12 + body.length ≤ 5120
        omega)
    simpa using this
  · rw [event_loop_crash_partial]
    refine ⟨.login, by cases p <;> decide, .inl rfl, ?_⟩
    cases p <;> simp only [Spec.BodyComplete, Spec.loginSize] at * <;> omega

/-- ... and for every CMPP submit of a logged-in session whose content is empty. -/
theorem empty_message_crashes_fails (gbDec : Bytes → Option Bytes) (ver : UInt8) (seq : UInt32) (body : Bytes)
    (h : body.getD ((if Cmpp.v3 ver then 128 else 116) + 1 +
      (if Cmpp.v3 ver then 32 * (body.getD 128 0).toNat else (21 * (body.getD 116 0).toNat) % 256) +
      (if Cmpp.v3 ver then 1 else 0)) 0 = 0) :
    serve gbDec .cmpp .login ver 4 seq body = .crash := by
  rw [event_loop_crash_partial]
  refine ⟨.submit, by decide, .inr rfl, ?_⟩
  simp only [Spec.BodyComplete, Spec.CmppSubmitBody]
  cases hv : Cmpp.v3 ver <;> simp only [hv, if_true, if_false, Bool.false_eq_true] at h ⊢ <;> rw [h] <;>
    rintro ⟨_, _, hc, _⟩ <;> exact hc rfl

example : (exampleSubmitBody []).getD (116 + 1 + (21 * ((exampleSubmitBody []).getD 116 0).toNat) % 256 + 0) 0 = 0 := by
  decide

end Handlers
end Gosms
