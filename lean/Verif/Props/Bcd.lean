import Verif.Lemmas.Utils
import Verif.Model.Sequences

/-!
# C03, C04: BCD strings and BCD message ids (utils/bcd_sequence.go)
-/

namespace Gosms

/-- A string of decimal digits. -/
def IsDigits (w : Bytes) : Prop := ∀ c ∈ w, 0x30 ≤ c.toNat ∧ c.toNat ≤ 0x39

theorem exists_digit {c : UInt8} (h : 0x30 ≤ c.toNat ∧ c.toNat ≤ 0x39) :
    ∃ d : Fin 10, c = digit d.val := by
  refine ⟨⟨c.toNat - 0x30, by omega⟩, ?_⟩
  have : 0x30 + (c.toNat - 0x30) = c.toNat := by omega
  simp only [digit, this]
  simp

theorem bcd_pair (i j : Fin 10) :
    bcdNibble (digit i.val) = UInt8.ofNat i.val ∧
    ((UInt8.ofNat i.val) <<< 4 ||| UInt8.ofNat j.val).toNat = 16 * i.val + j.val ∧
    bcdChar (((UInt8.ofNat i.val) <<< 4 ||| UInt8.ofNat j.val) >>> 4) = digit i.val ∧
    bcdChar (((UInt8.ofNat i.val) <<< 4 ||| UInt8.ofNat j.val) &&& 0x0f) = digit j.val := by
  revert i j; decide

/-- Induction on strings two characters at a time. -/
theorem pair_induction {motive : Bytes → Prop} (nil : motive []) (one : ∀ a, motive [a])
    (two : ∀ a b l, motive l → motive (a :: b :: l)) : ∀ l, motive l
  | [] => nil
  | [a] => one a
  | a :: b :: l => two a b l (pair_induction nil one two l)

theorem stoBcdLoop_even (w : Bytes) (hd : IsDigits w) (he : w.length % 2 = 0) (wb : Bytes) :
    stoBcdLoop w false 0 0 wb = (wb ++ stoBcd w, 0) ∧ (stoBcd w).length * 2 = w.length := by
  suffices h : ∃ out : Bytes, out.length * 2 = w.length ∧
      ∀ wb, stoBcdLoop w false 0 0 wb = (wb ++ out, 0) by
    obtain ⟨out, h1, h2⟩ := h
    have : stoBcd w = out := by
      unfold stoBcd; rw [h2]; simp
    rw [this, h2]; exact ⟨rfl, h1⟩
  induction w using pair_induction with
  | nil => exact ⟨[], rfl, fun wb => by simp [stoBcdLoop]⟩
  | one a => simp at he
  | two a b l ih =>
    obtain ⟨out, h1, h2⟩ := ih (fun c hc => hd c (by simp [hc])) (by simp only [List.length_cons] at he; omega)
    refine ⟨(bcdNibble a <<< 4 ||| bcdNibble b) :: out, by simp; omega, fun wb => ?_⟩
    rw [stoBcdLoop, stoBcdLoop, h2]
    simp

theorem stoBcd_pair (a b : UInt8) (l : Bytes) (hd : IsDigits (a :: b :: l))
    (he : (a :: b :: l).length % 2 = 0) :
    stoBcd (a :: b :: l) = (bcdNibble a <<< 4 ||| bcdNibble b) :: stoBcd l := by
  have hdl : IsDigits l := fun c hc => hd c (by simp [hc])
  have h1 : stoBcdLoop (a :: b :: l) false 0 0 [] =
      ([] ++ [bcdNibble a <<< 4 ||| bcdNibble b] ++ stoBcd l, 0) := by
    rw [stoBcdLoop, stoBcdLoop, (stoBcdLoop_even l hdl (by simp only [List.length_cons] at he; omega) _).1]
  unfold stoBcd
  rw [h1]
  simp [stoBcd]

/-! ## C03 -/

/-- A digit string of even length is recovered from its BCD form, which has half the length and
carries the digits pairwise, the first in the high nibble. -/
theorem bcd_lossless (w : Bytes) (hd : IsDigits w) (he : w.length % 2 = 0) :
    bcdToString (stoBcd w) = w ∧ (stoBcd w).length * 2 = w.length ∧
    ∀ i (hi : 2 * i + 1 < w.length), ∃ h : i < (stoBcd w).length,
      ((stoBcd w)[i]).toNat =
        16 * ((w[2 * i]'(by omega)).toNat - 0x30) + ((w[2 * i + 1]'hi).toNat - 0x30) := by
  have hlen := (stoBcdLoop_even w hd he []).2
  suffices h : bcdToString (stoBcd w) = w ∧ ∀ i (hi : 2 * i + 1 < w.length),
      ∃ h : i < (stoBcd w).length, ((stoBcd w)[i]).toNat =
        16 * ((w[2 * i]'(by omega)).toNat - 0x30) + ((w[2 * i + 1]'hi).toNat - 0x30) from
    ⟨h.1, hlen, h.2⟩
  induction w using pair_induction with
  | nil =>
    refine ⟨rfl, fun i hi => ?_⟩
    simp at hi
  | one a => simp at he
  | two a b l ih =>
    have hdl : IsDigits l := fun c hc => hd c (by simp [hc])
    have hel : l.length % 2 = 0 := by simp only [List.length_cons] at he; omega
    obtain ⟨ih1, ih2⟩ := ih hdl hel (stoBcdLoop_even l hdl hel []).2
    obtain ⟨i, rfl⟩ := exists_digit (hd a (by simp))
    obtain ⟨j, rfl⟩ := exists_digit (hd b (by simp))
    rw [stoBcd_pair _ _ _ hd he]
    obtain ⟨p1, p2, p3, p4⟩ := bcd_pair i j
    obtain ⟨q1, _⟩ := bcd_pair j i
    rw [p1, q1]
    constructor
    · have : bcdToString ((UInt8.ofNat i.val <<< 4 ||| UInt8.ofNat j.val) :: stoBcd l) =
          [bcdChar ((UInt8.ofNat i.val <<< 4 ||| UInt8.ofNat j.val) >>> 4),
           bcdChar ((UInt8.ofNat i.val <<< 4 ||| UInt8.ofNat j.val) &&& 0x0f)] ++
          bcdToString (stoBcd l) := by
        simp [bcdToString]
      rw [this, ih1, p3, p4]; rfl
    · intro k hk
      cases k with
      | zero =>
        refine ⟨by simp, ?_⟩
        simp only [List.getElem_cons_zero, Nat.mul_zero, Nat.zero_add, List.getElem_cons_succ]
        rw [p2, digit_toNat i.isLt, digit_toNat j.isLt]; omega
      | succ k =>
        obtain ⟨h, e⟩ := ih2 k (by simp at hk; omega)
        refine ⟨by simpa using h, ?_⟩
        have i1 : 2 * (k + 1) = 2 * k + 1 + 1 := by omega
        simp only [List.getElem_cons_succ, i1]
        exact e

example : IsDigits (ascii "020304") ∧ (ascii "020304").length % 2 = 0 := by
  constructor
  · intro c hc
    have : c ∈ ([0x30, 0x32, 0x30, 0x33, 0x30, 0x34] : Bytes) := by simpa [ascii] using hc
    simp at this; rcases this with h | h | h | h | h | h <;> subst h <;> decide
  · decide
example : stoBcd (ascii "123456") = [0x12, 0x34, 0x56] := by decide

/-! ## C04 -/

theorem isDigits_fixDec (n v : Nat) : IsDigits (fixDec n v) := by
  induction n generalizing v with
  | zero => intro c hc; simp [fixDec] at hc
  | succ n ih =>
    intro c hc
    rw [fixDec, List.mem_append] at hc
    rcases hc with hc | hc
    · exact ih _ c hc
    · simp only [List.mem_singleton] at hc
      subst hc
      rw [digit_toNat (by omega)]; omega

theorem intToFixStr_eq (i l : Nat) (hl : 1 ≤ l) (h : i < 10 ^ l) : intToFixStr i l = fixDec l i := by
  obtain ⟨h1, h2⟩ := padLeft_dec l i hl h
  unfold intToFixStr
  simp only
  split
  · rename_i he
    rw [← h2, he]; simp
  · rw [List.length_append, List.length_replicate, Nat.add_comm, Nat.add_sub_cancel,
      List.drop_append_of_le_length (by simpa using h1), List.drop_replicate]
    exact h2

theorem bcd_bytes_length {w : Bytes} (hd : IsDigits w) (n : Nat) (hn : w.length = 2 * n) :
    (stoBcd w).length = n := by
  have := (stoBcdLoop_even w hd (by omega) []).2
  omega

theorem bcdToString_append (a b : Bytes) : bcdToString (a ++ b) = bcdToString a ++ bcdToString b := by
  simp [bcdToString]

/-- `NewBcdSequence` keeps the last six digits of a numeric node id, left-padded with zeros, and
falls back to 000000 for a non-numeric ASCII id. -/
theorem newBcdSequence_worker (w : List Char) (hascii : ∀ c ∈ w, c.toNat < 128) :
    ((∀ c ∈ w, 0x30 ≤ c.toNat ∧ c.toNat ≤ 0x39) →
      bcdToString (newBcdSequence (utf8 w)).worker =
        (ascii "000000" ++ utf8 w).drop (utf8 w).length) ∧
    ((∃ c ∈ w, ¬ (0x30 ≤ c.toNat ∧ c.toNat ≤ 0x39)) →
      bcdToString (newBcdSequence (utf8 w)).worker = ascii "000000") := by
  have h6 : (ascii "000000").length = 6 := by decide
  have hd6 : IsDigits (ascii "000000") := by
    intro c hc
    have : c ∈ (List.replicate 6 0x30 : Bytes) := by
      have e : ascii "000000" = List.replicate 6 0x30 := by decide
      rwa [e] at hc
    rw [List.mem_replicate] at this
    rw [this.2]; decide
  have hbad : ((runes (utf8 w)).any fun r =>
      decide ((UInt8.ofNat r) > 0x39) || decide ((UInt8.ofNat r) < 0x30)) = true ↔
      ∃ c ∈ w, ¬ (0x30 ≤ c.toNat ∧ c.toNat ≤ 0x39) := by
    rw [runes_utf8, List.any_map, List.any_eq_true]
    constructor
    · rintro ⟨c, hc, hb⟩
      refine ⟨c, hc, ?_⟩
      have hlt := hascii c hc
      simp only [Function.comp_apply, Bool.or_eq_true, decide_eq_true_eq, gt_iff_lt,
        UInt8.lt_iff_toNat_lt, u8_ofNat_toNat (show c.toNat < 256 by omega)] at hb
      have e1 : (0x39 : UInt8).toNat = 0x39 := rfl
      have e2 : (0x30 : UInt8).toNat = 0x30 := rfl
      rw [e1, e2] at hb
      omega
    · rintro ⟨c, hc, hb⟩
      refine ⟨c, hc, ?_⟩
      have hlt := hascii c hc
      simp only [Function.comp_apply, Bool.or_eq_true, decide_eq_true_eq, gt_iff_lt,
        UInt8.lt_iff_toNat_lt, u8_ofNat_toNat (show c.toNat < 256 by omega)]
      have e1 : (0x39 : UInt8).toNat = 0x39 := rfl
      have e2 : (0x30 : UInt8).toNat = 0x30 := rfl
      rw [e1, e2]
      omega
  constructor
  · intro hdig
    have hnb : ((runes (utf8 w)).any fun r =>
        decide ((UInt8.ofNat r) > 0x39) || decide ((UInt8.ofNat r) < 0x30)) = false := by
      rw [← Bool.not_eq_true, hbad]
      rintro ⟨c, hc, hb⟩
      exact hb (hdig c hc)
    simp only [newBcdSequence, hnb, Bool.false_eq_true, if_false]
    have hdw : IsDigits (utf8 w) := by
      intro c hc
      simp only [utf8, List.mem_flatMap] at hc
      obtain ⟨x, hx, hcx⟩ := hc
      have hdx := hdig x hx
      rw [utf8Enc, if_pos (by omega)] at hcx
      simp only [List.mem_singleton] at hcx
      rw [hcx, u8_ofNat_toNat (by omega)]
      exact hdx
    have hlen : (ascii "000000" ++ utf8 w).length - 6 = (utf8 w).length := by
      rw [List.length_append, h6]; omega
    rw [hlen]
    have hdd : IsDigits ((ascii "000000" ++ utf8 w).drop (utf8 w).length) := by
      intro c hc
      have := List.mem_of_mem_drop hc
      rw [List.mem_append] at this
      rcases this with h | h
      · exact hd6 c h
      · exact hdw c h
    refine (bcd_lossless _ hdd ?_).1
    rw [List.length_drop, List.length_append, h6, Nat.add_sub_cancel]
  · intro hex
    have hb := hbad.mpr hex
    simp only [newBcdSequence, hb, if_true]
    have e : (ascii "000000" ++ ascii "000000").drop
        ((ascii "000000" ++ ascii "000000").length - 6) = ascii "000000" := by decide
    rw [e]
    exact (bcd_lossless _ hd6 (by decide)).1

example : bcdToString (newBcdSequence (utf8 "12345678".toList)).worker = ascii "345678" := by
  rw [(newBcdSequence_worker _ (by decide)).1 (by decide)]; decide

/-- `tf` is a generator whose node id is the 6-digit string `node` (as made by `NewBcdSequence`). -/
def BcdSeq.HasNode (tf : BcdSeq) (node : Bytes) : Prop :=
  IsDigits node ∧ node.length = 6 ∧ tf.worker = stoBcd node

/-- The format of an id: in decimal, the node id, the minute `MMDDHHMM` and a six-digit counter. -/
theorem bcd_id_format (tf : BcdSeq) (node mi : Bytes) (hw : tf.HasNode node) (hmi : IsDigits mi)
    (h8 : mi.length = 8) :
    ∃ k, k < 1000000 ∧ (tf.nextVal mi).1.length = 10 ∧
      (tf.nextVal mi).1 = stoBcd node ++ stoBcd mi ++ stoBcd (fixDec 6 k) ∧
      bcdToString (tf.nextVal mi).1 = node ++ mi ++ fixDec 6 k ∧
      k = (tf.nextVal mi).2.sequence := by
  obtain ⟨hn1, hn2, hn3⟩ := hw
  simp only [BcdSeq.nextVal]
  generalize hk : (if tf.timestamp = mi then (tf.sequence + 1) % 1000000 else 0) = k
  have hk' : k < 1000000 := by
    rw [← hk]; split
    · exact Nat.mod_lt _ (by decide)
    · decide
  have e1 : pad 3 tf.worker = stoBcd node := by
    rw [hn3, pad_eq_self (bcd_bytes_length hn1 3 (by omega))]
  have e2 : pad 4 (stoBcd mi) = stoBcd mi := pad_eq_self (bcd_bytes_length hmi 4 (by omega))
  have e3 : pad 3 (stoBcd (intToFixStr k 6)) = stoBcd (fixDec 6 k) := by
    rw [intToFixStr_eq k 6 (by decide) hk', pad_eq_self (bcd_bytes_length (isDigits_fixDec 6 k) 3 (by simp))]
  refine ⟨k, hk', ?_, ?_, ?_, rfl⟩
  · simp
  · rw [e1, e2, e3]
  · rw [e1, e2, e3, bcdToString_append, bcdToString_append, (bcd_lossless node hn1 (by omega)).1,
      (bcd_lossless mi hmi (by omega)).1, (bcd_lossless _ (isDigits_fixDec 6 k) (by simp)).1]

theorem nextVal_node (tf : BcdSeq) (node mi : Bytes) (hw : tf.HasNode node) :
    (tf.nextVal mi).2.HasNode node := hw

/-- Position `i` of a history is in the same minute as the positions before it that carry the same
reading: readings never come back after having changed. -/
def NeverReturns (ms : List Bytes) : Prop :=
  ∀ i j k (hk : k < ms.length) (hij : i < j) (hjk : j < k),
    ms[i]'(by omega) = ms[k] → ms[j]'(by omega) = ms[k]

/-- After the readings `past`, the generator holds the last reading and counts its occurrences. -/
def BcdInv (tf : BcdSeq) (past : List Bytes) : Prop :=
  (past = [] ∧ tf.timestamp = []) ∨
  (∃ p mi, past = p ++ [mi] ∧ tf.timestamp = mi ∧ tf.sequence = past.count mi - 1)

theorem bcd_run_getElem (node : Bytes) (ms : List Bytes) :
    ∀ (tf : BcdSeq) (past : List Bytes), tf.HasNode node → BcdInv tf past →
      NeverReturns (past ++ ms) → (∀ m ∈ past ++ ms, IsDigits m ∧ m.length = 8) →
      (∀ m ∈ past ++ ms, (past ++ ms).count m ≤ 1000000) →
      ∃ hl : (tf.run ms).length = ms.length, ∀ i (hi : i < ms.length),
        bcdToString ((tf.run ms)[i]'(by omega)) =
          node ++ ms[i] ++ fixDec 6 ((past ++ ms.take i).count ms[i]) ∧
        (past ++ ms.take i).count ms[i] < 1000000 := by
  induction ms with
  | nil =>
    intro tf past _ _ _ _ _
    exact ⟨rfl, fun i hi => by simp at hi⟩
  | cons mi ms ih =>
    intro tf past hnode hinv hnr hdig hcnt
    have hmi := hdig mi (by simp)
    obtain ⟨k, hk, _, _, hfmt, hseq⟩ := bcd_id_format tf node mi hnode hmi.1 hmi.2
    -- number of earlier occurrences of the current reading
    have hcount : past.count mi < 1000000 := by
      have := hcnt mi (by simp)
      rw [List.count_append, List.count_cons_self] at this; omega
    have hkval : k = past.count mi := by
      rw [hseq]
      simp only [BcdSeq.nextVal]
      rcases hinv with ⟨rfl, ht⟩ | ⟨p, m, hp, ht, hs⟩
      · rw [if_neg, List.count_nil]
        rw [ht]; intro h; rw [← h] at hmi; simp at hmi
      · by_cases hm : m = mi
        · subst hm
          rw [if_pos ht, hs]
          have hpos : 1 ≤ past.count m := by rw [hp]; simp
          rw [Nat.mod_eq_of_lt (by omega)]; omega
        · rw [if_neg (by rw [ht]; exact hm)]
          -- `mi` cannot have occurred before, as the last reading differs
          have : mi ∉ past := by
            intro hin
            rw [hp, List.mem_append] at hin
            rcases hin with hin | hin
            · obtain ⟨a, ha, hae⟩ := List.getElem_of_mem hin
              have hL : past ++ mi :: ms = p ++ (m :: mi :: ms) := by rw [hp]; simp
              rw [hL] at hnr
              have := hnr a p.length (p.length + 1) (by simp) ha (by omega) (by
                rw [List.getElem_append_left ha, List.getElem_append_right (by omega)]
                simp [hae])
              rw [List.getElem_append_right (by omega), List.getElem_append_right (by omega)] at this
              simp only [Nat.sub_self, Nat.add_sub_cancel_left, List.getElem_cons_zero,
                List.getElem_cons_succ] at this
              exact hm this
            · simp at hin; exact hm hin.symm
          rw [List.count_eq_zero.mpr this]
    have hinv' : BcdInv (tf.nextVal mi).2 (past ++ [mi]) := by
      refine Or.inr ⟨past, mi, rfl, rfl, ?_⟩
      rw [← hseq, hkval, List.count_append]; simp
    have happ : past ++ mi :: ms = (past ++ [mi]) ++ ms := by simp
    rw [happ] at hnr hdig hcnt
    obtain ⟨hl, hrec⟩ := ih (tf.nextVal mi).2 (past ++ [mi]) (nextVal_node tf node mi hnode) hinv'
      hnr hdig hcnt
    refine ⟨by simp [BcdSeq.run, hl], ?_⟩
    intro i hi
    cases i with
    | zero =>
      simp only [BcdSeq.run, List.getElem_cons_zero, List.take_zero, List.append_nil]
      rw [hfmt, hkval]
      exact ⟨rfl, hcount⟩
    | succ i =>
      have hi' : i < ms.length := by simpa using hi
      obtain ⟨r1, r2⟩ := hrec i hi'
      simp only [BcdSeq.run, List.getElem_cons_succ, List.take_succ_cons]
      have e : past ++ mi :: ms.take i = past ++ [mi] ++ ms.take i := by simp
      rw [e]
      exact ⟨r1, r2⟩

/-- **C04.** In every history of calls on a fresh generator in which a minute reading never comes
back after it changed, and no minute occurs more than 10^6 times, all ids returned are different. -/
theorem bcd_ids_unique (tf : BcdSeq) (node : Bytes) (ms : List Bytes) (hnode : tf.HasNode node)
    (hfresh : tf.timestamp = []) (hclock : ∀ m ∈ ms, IsDigits m ∧ m.length = 8)
    (hnr : NeverReturns ms) (hcnt : ∀ m ∈ ms, ms.count m ≤ 1000000) :
    (tf.run ms).length = ms.length ∧ (tf.run ms).Nodup := by
  obtain ⟨hl, hget⟩ := bcd_run_getElem node ms tf [] hnode (Or.inl ⟨rfl, hfresh⟩)
    (by simpa using hnr) (by simpa using hclock) (by simpa using hcnt)
  refine ⟨hl, ?_⟩
  rw [List.nodup_iff_pairwise_ne, List.pairwise_iff_getElem]
  intro i j hi hj hij heq
  obtain ⟨a1, a2⟩ := hget i (by omega)
  obtain ⟨b1, b2⟩ := hget j (by omega)
  rw [heq, b1] at a1
  have hi8 := (hclock ms[i] (List.getElem_mem _)).2
  have hj8 := (hclock ms[j] (List.getElem_mem _)).2
  simp only [List.append_assoc] at a1
  have h1 := List.append_cancel_left a1
  obtain ⟨h2, h3⟩ := List.append_inj h1 (by omega)
  have h4 := fixDec_inj b2 a2 h3
  -- the counter of `j` has seen position `i`
  simp only [List.nil_append] at h4
  have h5 : (ms.take i).count ms[i] < (ms.take j).count ms[i] := by
    have hsplit : ms.take j = ms.take i ++ (ms.drop i).take (j - i) := by
      have : j = i + (j - i) := by omega
      rw [this, List.take_add]; simp
    rw [hsplit, List.count_append]
    have : 0 < ((ms.drop i).take (j - i)).count ms[i] := by
      rw [List.count_pos_iff]
      have hd : ms.drop i = ms[i] :: ms.drop (i + 1) := List.drop_eq_getElem_cons (by omega)
      rw [hd]
      have : j - i = (j - i - 1) + 1 := by omega
      rw [this, List.take_succ_cons]; simp
    omega
  rw [h2] at h4
  omega

example : (newBcdSequence (ascii "123")).HasNode (ascii "000123") := by
  refine ⟨?_, by decide, ?_⟩
  · intro c hc
    have : c ∈ ([0x30, 0x30, 0x30, 0x31, 0x32, 0x33] : Bytes) := by simpa [ascii] using hc
    simp at this; rcases this with h | h | h | h <;> subst h <;> decide
  · have : (runes (ascii "123")) = [0x31, 0x32, 0x33] := by
      have h := runes_utf8 "123".toList
      have e : utf8 "123".toList = ascii "123" := by decide
      rw [e] at h; rw [h]; decide
    simp only [newBcdSequence, this]; decide
example : NeverReturns [ascii "01021504", ascii "01021504", ascii "01021505"] := by
  intro i j k hk hij hjk
  have hk2 : k = 2 := by simp at hk; omega
  have hj1 : j = 1 := by omega
  have hi0 : i = 0 := by omega
  subst hk2 hj1 hi0
  intro h
  simp only [List.getElem_cons_zero, List.getElem_cons_succ] at h
  exact absurd h (by decide)

/-- The hypothesis of `bcd_ids_unique` is met by every wall clock that does not go backwards within
a year: minute stamps `MMDDHHMM` of non-decreasing times never come back. -/
theorem neverReturns_of_monotone (ts : List Nat) (hmono : ts.Pairwise (· ≤ ·))
    (hlt : ∀ t ∈ ts, t < 10 ^ 8) : NeverReturns (ts.map (fixDec 8)) := by
  intro i j k hk hij hjk h
  simp only [List.length_map] at hk
  simp only [List.getElem_map] at h ⊢
  have e := fixDec_inj (hlt _ (List.getElem_mem _)) (hlt _ (List.getElem_mem _)) h
  rw [List.pairwise_iff_getElem] at hmono
  have h1 := hmono i j (by omega) (by omega) hij
  have h2 := hmono j k (by omega) (by omega) hjk
  congr 1
  omega

example : [1021504, 1021504, 1021505, 12312359].Pairwise (· ≤ ·) := by decide

/-- The bound of 10^6 ids per minute is sharp: the id repeats after exactly 10^6 calls within one
minute. -/
theorem bcd_repeats_after_million (tf : BcdSeq) (mi : Bytes) (h : tf.timestamp = mi)
    (hs : tf.sequence < 1000000) :
    (Nat.repeat (fun t => (t.nextVal mi).2) 1000000 tf) = tf := by
  have key : ∀ n, (Nat.repeat (fun t => (t.nextVal mi).2) n tf) =
      { tf with sequence := (tf.sequence + n) % 1000000 } := by
    intro n
    induction n with
    | zero =>
      simp only [Nat.repeat, Nat.add_zero, Nat.mod_eq_of_lt hs]
    | succ n ih =>
      rw [Nat.repeat, ih]
      simp only [BcdSeq.nextVal]
      rw [if_pos h, ← h]
      congr 1
      omega
  have e : (tf.sequence + 1000000) % 1000000 = tf.sequence := by omega
  rw [key, e]

end Gosms
