import Verif.Spec.MoText
import Verif.Props.CmppDeliver
import Verif.Props.CmppLengths
import Verif.Props.SmgpDeliver
import Verif.Props.Sgip

/-!
# C81: what becomes of a text sent by a handset (`NewDelivery`, `NewDeliver`), for every text
-/

namespace Gosms

theorem utf8_ascii_take (cs : List Char) (h : Spec.AsciiText cs) (n : Nat) :
    (utf8 cs).take n = utf8 (cs.take n) := by
  induction cs generalizing n with
  | nil => simp [utf8]
  | cons c cs ih =>
    have hc : c.toNat < 128 := h c (by simp)
    cases n with
    | zero => simp [utf8]
    | succ n =>
      rw [List.take_succ_cons, utf8_cons, utf8_cons, ← ih (fun d hd => h d (by simp [hd]))]
      unfold utf8Enc
      rw [if_pos (by omega)]
      rfl

theorem utf8_ascii_length (cs : List Char) (h : Spec.AsciiText cs) : (utf8 cs).length = cs.length := by
  rw [((length_runes_utf8 cs).2).2 h, runes_utf8, List.length_map]

theorem utf16_length (cs : List Char) : 2 * cs.length ≤ (Spec.utf16 cs).length ∧
    ((Spec.utf16 cs).length = 2 * cs.length ↔ Spec.Bmp cs) := by
  induction cs with
  | nil => simp [Spec.utf16, Spec.Bmp]
  | cons c cs ih =>
    obtain ⟨h1, h2⟩ := ih
    have e : (Spec.utf16 (c :: cs)).length = (utf16Enc c.toNat).length + (Spec.utf16 cs).length := by
      simp [Spec.utf16]
    have hb : Spec.Bmp (c :: cs) ↔ c.toNat < 0x10000 ∧ Spec.Bmp cs := by simp [Spec.Bmp]
    have hu : (utf16Enc c.toNat).length = if c.toNat < 0x10000 then 2 else 4 := by
      unfold utf16Enc; split <;> rfl
    rw [e, hb, hu, List.length_cons, ← h2]
    split <;> constructor <;> (try constructor) <;> omega

theorem ucs2_of_text (cs : List Char) : utf8ToUcs2 (utf8 cs) = some (Spec.utf16 cs) := by
  rw [utf8ToUcs2, if_pos (validUtf8_utf8 cs), runes_utf8]; rfl

theorem runes_take_utf8 (cs : List Char) (n : Nat) :
    ((runes (utf8 cs)).take n).flatMap utf8Enc = utf8 (cs.take n) := by
  rw [runes_utf8, ← List.map_take]
  generalize cs.take n = l
  induction l with
  | nil => rfl
  | cons c l ih => rw [List.map_cons, List.flatMap_cons, ih, utf8_cons]

/-- The first packet of a message split into `pkg`-byte packets. -/
theorem head_slice (g : UInt8) (c : Bytes) (pkg : Nat) (hp : 6 < pkg) (hc : pkg ≤ c.length) :
    (toTPUDHISlices g c pkg).bind List.head? =
      some (Spec.udhHeader g (UInt8.ofNat (sliceCount c.length (pkg - 6))) 1 ++ c.take (pkg - 6)) := by
  rw [toTPUDHISlices_long g c pkg hp hc]
  have h2 : 1 < sliceCount c.length (pkg - 6) := by
    unfold sliceCount
    rw [show (1 : Nat) = 0 + 1 from rfl, Nat.succ_le_iff.symm, Nat.le_div_iff_mul_le (by omega)]
    omega
  obtain ⟨n, hn⟩ : ∃ n, sliceCount c.length (pkg - 6) = n + 2 := ⟨_, (Nat.sub_add_cancel h2).symm⟩
  simp only [Option.bind_some, hn, List.range_succ_eq_map, List.map_cons, List.head?_cons]
  have : sliceBody c (pkg - 6) 0 = c.take (pkg - 6) := by
    unfold sliceBody
    rw [if_pos (by omega), Nat.mul_zero, List.drop_zero]
  rw [this]
  rfl

namespace Cmpp

/-- What the code keeps and declares. -/
theorem moContent_text (cs : List Char) :
    moContent (utf8 cs) =
      (if Spec.AsciiText cs then 0 else 8, Spec.moLength cs, utf8 (Spec.moKept cs)) := by
  unfold moContent Spec.moLength Spec.moKept
  by_cases ha : Spec.AsciiText cs
  · have hf : Gosms.msgFmt (utf8 cs) = 0 := (msgFmt_ascii_iff cs).1.2 ha
    simp only [hf, if_pos ha, utf8_ascii_length cs ha, List.length_take]
    rw [if_neg (by decide)]
    by_cases h : cs.length > 160
    · rw [if_pos h, utf8_ascii_take cs ha]; congr 2; omega
    · rw [if_neg h, List.take_of_length_le (by omega)]; congr 2; omega
  · have hf : Gosms.msgFmt (utf8 cs) = 8 := by
      refine (msgFmt_ascii_iff cs).2.2 ?_
      unfold Spec.AsciiText at ha
      simp only [Classical.not_forall, not_imp, Nat.not_lt] at ha
      obtain ⟨c, h1, h2⟩ := ha
      exact ⟨c, h1, h2⟩
    simp only [hf, if_neg ha, if_true, List.length_take]
    have hr : (runes (utf8 cs)).length = cs.length := by rw [runes_utf8, List.length_map]
    rw [hr]
    by_cases h : 2 * cs.length > 140
    · rw [if_pos h, runes_take_utf8]; congr 2; omega
    · rw [if_neg h, List.take_of_length_le (by omega)]; congr 2; omega

/-- The packet `NewDelivery` makes for a text, on the wire, for every text. `content` is the encoded text
if that is shorter than one packet (160 bytes, or 140 for UTF-16), and otherwise the first packet of a
concatenated message. -/
theorem cmpp_mo_wire (ac : AuthConf) (phone dest sid : Bytes) (cs : List Char) (seq : UInt32) (id : UInt64)
    (g : UInt8) :
    let pkg := if Spec.AsciiText cs then 160 else 140
    let enc := Spec.moEncoded cs
    let content := if enc.length < pkg then enc else
      Spec.udhHeader g (UInt8.ofNat ((enc.length + (pkg - 6) - 1) / (pkg - 6))) 1 ++ enc.take (pkg - 6)
    let n := UInt8.ofNat (Spec.moLength cs)
    (newDelivery ac phone (utf8 cs) dest sid seq id).encode g = some
      (Spec.header12 ((if Spec.major ac.version = 3 then 109 else 85) + n.toUInt32) 5 seq ++
        [be64 id, pad 21 (ac.smsDisplayNo ++ dest), pad 10 (if sid = [] then ac.serviceId else sid),
         [0], [0], [if Spec.AsciiText cs then 0 else 8],
         if Spec.major ac.version = 3 then pad 32 phone else pad 21 phone,
         if Spec.major ac.version = 3 then [0] else [],
         [0], [n], pad (Spec.moLength cs) content,
         if Spec.major ac.version = 3 then zeros 20 else zeros 8].flatten) := by
  intro pkg enc content n
  have hle : Spec.moLength cs ≤ 160 := by
    unfold Spec.moLength Spec.moKept
    split
    · simp; omega
    · simp; omega
  have hn : n.toNat = Spec.moLength cs := u8_ofNat_toNat (by omega)
  obtain ⟨d, hd⟩ : ∃ d, newDelivery ac phone (utf8 cs) dest sid seq id = d := ⟨_, rfl⟩
  rw [hd]
  unfold newDelivery at hd
  rw [moContent_text] at hd
  simp only at hd
  have hk : d.contentBytes g = some content := by
    have e1 : d.registeredDelivery = 0 := by rw [← hd]
    have e2 : d.msgFmt = if Spec.AsciiText cs then 0 else 8 := by rw [← hd]
    have e3 : d.msgContent = utf8 (Spec.moKept cs) := by rw [← hd]
    rw [Delivery.contentBytes, e1, if_neg (by decide), e2, e3, msgSlices]
    have henc : (if (if Spec.AsciiText cs then (0 : UInt8) else 8) = 8 then
        toTPUDHISlices g ((utf8ToUcs2 (utf8 (Spec.moKept cs))).getD []) 140
        else toTPUDHISlices g (utf8 (Spec.moKept cs)) 160) = toTPUDHISlices g enc pkg := by
      show _ = toTPUDHISlices g (Spec.moEncoded cs) (if Spec.AsciiText cs then 160 else 140)
      unfold Spec.moEncoded
      by_cases ha : Spec.AsciiText cs
      · simp only [if_pos ha]; rw [if_neg (by decide)]
      · simp only [if_neg ha, if_true, ucs2_of_text, Option.getD_some]
    rw [henc]
    have hp : 6 < pkg := by show 6 < if _ then _ else _; split <;> omega
    by_cases h : enc.length < pkg
    · rw [short_message_unchanged _ _ _ h]
      show some enc = some (if _ then _ else _)
      rw [if_pos h]
    · rw [head_slice _ _ _ hp (by omega)]
      show _ = some (if _ then _ else _)
      rw [if_neg h]; rfl
  have htot : d.hdr.totalLength.toNat = 12 + (Spec.Cmpp.deliverBody d content).length := by
    rw [length_deliverBody]
    have e1 : d.hdr.totalLength = (if v3 ac.version then 109 else 85) + n.toUInt32 := by rw [← hd]
    have e2 : d.msgLength = n := by rw [← hd]
    have e3 : d.version = ac.version := by rw [← hd]
    rw [e1, e2, e3]
    have hu : n.toUInt32.toNat = n.toNat := by simp
    by_cases h : v3 ac.version = true
    · have en : (109 : UInt32).toNat = 109 := rfl
      rw [if_pos h, if_pos ((v3_iff _).1 h), UInt32.toNat_add, hu, en]; omega
    · have h' : ¬ Spec.major ac.version = 3 := fun e => h ((v3_iff _).2 e)
      have en : (85 : UInt32).toNat = 85 := rfl
      rw [if_neg h, if_neg h', UInt32.toNat_add, hu, en]; omega
  rw [deliver_encode d g content hk htot]
  have hv : (if v3 ac.version = true then (109 : UInt32) else 85) =
      if Spec.major ac.version = 3 then 109 else 85 := by
    by_cases h : v3 ac.version = true
    · rw [if_pos h, if_pos ((v3_iff _).1 h)]
    · rw [if_neg h, if_neg (fun e => h ((v3_iff _).2 e))]
  have hs : (if sid ≠ [] then sid else ac.serviceId) = if sid = [] then ac.serviceId else sid := by
    by_cases h : sid = [] <;> simp [h]
  rw [← hd]
  unfold Spec.Cmpp.deliverBody
  simp only [hv, hs]
  rw [show UInt8.ofNat (Spec.moLength cs) = n from rfl, hn]
  rfl

/-- Where the content stands in a delivery frame. -/
def contentAt (ac : AuthConf) : Nat := if Spec.major ac.version = 3 then 89 else 77

/-- The frame, split at the content. -/
theorem mo_split (ac : AuthConf) (phone dest sid : Bytes) (cs : List Char) (seq : UInt32) (id : UInt64)
    (g : UInt8) :
    let pkg := if Spec.AsciiText cs then 160 else 140
    let enc := Spec.moEncoded cs
    let content := if enc.length < pkg then enc else
      Spec.udhHeader g (UInt8.ofNat ((enc.length + (pkg - 6) - 1) / (pkg - 6))) 1 ++ enc.take (pkg - 6)
    ∃ frame pre post, (newDelivery ac phone (utf8 cs) dest sid seq id).encode g = some frame ∧
      Spec.SelfDelimiting frame ∧
      frame = pre ++ UInt8.ofNat (Spec.moLength cs) :: (pad (Spec.moLength cs) content ++ post) ∧
      pre.length + 1 = contentAt ac ∧ post.length = if Spec.major ac.version = 3 then 20 else 8 := by
  intro pkg enc content
  have hw := cmpp_mo_wire ac phone dest sid cs seq id g
  obtain ⟨frame, h1, h2⟩ := cmpp_newDelivery_length ac phone (utf8 cs) dest sid seq id g
  simp only at hw
  rw [h1, Option.some.injEq] at hw
  refine ⟨frame, (Spec.header12 ((if Spec.major ac.version = 3 then 109 else 85) +
        (UInt8.ofNat (Spec.moLength cs)).toUInt32) 5 seq ++
      [be64 id, pad 21 (ac.smsDisplayNo ++ dest), pad 10 (if sid = [] then ac.serviceId else sid),
         [0], [0], [if Spec.AsciiText cs then 0 else 8],
         if Spec.major ac.version = 3 then pad 32 phone else pad 21 phone,
         if Spec.major ac.version = 3 then [0] else [], [0]].flatten),
    (if Spec.major ac.version = 3 then zeros 20 else zeros 8), h1, h2, ?_, ?_, ?_⟩
  · rw [hw]
    simp only [List.flatten_cons, List.flatten_nil, List.append_assoc, List.append_nil, List.cons_append,
      List.nil_append]
    rfl
  · unfold contentAt
    by_cases h : Spec.major ac.version = 3 <;> simp [h, length_header12]
  · by_cases h : Spec.major ac.version = 3 <;> simp [h, zeros]

/-- A text that fits one packet with room to spare arrives on the wire whole: fewer than 160 ASCII
characters, or fewer than 70 characters of one UTF-16 unit each. Partial: not for the other texts, see
below. -/
theorem cmpp_mo_text_partial (ac : AuthConf) (phone dest sid : Bytes) (cs : List Char) (seq : UInt32)
    (id : UInt64) (g : UInt8)
    (hfit : if Spec.AsciiText cs then cs.length < 160 else cs.length < 70 ∧ Spec.Bmp cs) :
    ∃ frame enc, (newDelivery ac phone (utf8 cs) dest sid seq id).encode g = some frame ∧
      Spec.SelfDelimiting frame ∧
      enc = (if Spec.AsciiText cs then utf8 cs else Spec.utf16 cs) ∧ enc.length < 256 ∧
      frame[contentAt ac - 1]? = some (UInt8.ofNat enc.length) ∧
      (frame.drop (contentAt ac)).take enc.length = enc ∧
      frame.length = contentAt ac + enc.length + (if Spec.major ac.version = 3 then 20 else 8) := by
  have hkept : Spec.moKept cs = cs := by
    unfold Spec.moKept
    apply List.take_of_length_le
    split at hfit
    · rw [if_pos ‹_›]; omega
    · rw [if_neg ‹_›]; omega
  have henc : Spec.moEncoded cs = if Spec.AsciiText cs then utf8 cs else Spec.utf16 cs := by
    unfold Spec.moEncoded; rw [hkept]
  have hlen : Spec.moLength cs = (Spec.moEncoded cs).length := by
    unfold Spec.moLength Spec.moEncoded
    rw [hkept]
    split at hfit
    · rw [if_pos ‹_›, if_pos ‹_›, utf8_ascii_length _ ‹_›]
    · rw [if_neg ‹_›, if_neg ‹_›, (utf16_length cs).2.2 hfit.2]
  have hlt : (Spec.moEncoded cs).length < if Spec.AsciiText cs then 160 else 140 := by
    rw [← hlen]
    unfold Spec.moLength
    rw [hkept]
    split at hfit
    · rw [if_pos ‹_›, if_pos ‹_›]; exact hfit
    · rw [if_neg ‹_›, if_neg ‹_›]; omega
  have h160 : (Spec.moEncoded cs).length < 256 := by split at hlt <;> omega
  obtain ⟨frame, pre, post, h1, h2, h3, h4, h5⟩ := mo_split ac phone dest sid cs seq id g
  simp only [if_pos hlt, hlen, pad_eq_self rfl] at h3
  refine ⟨frame, Spec.moEncoded cs, h1, h2, henc, h160, ?_, ?_, ?_⟩
  · rw [h3, ← h4, Nat.add_sub_cancel]
    simp
  · rw [h3, ← h4, ← List.singleton_append, ← List.append_assoc, List.drop_left' (by simp),
      List.take_left' rfl]
  · rw [h3, ← h4, ← h5]
    simp; omega

example : Spec.AsciiText (ascii "TD" |>.map fun b => Char.ofNat b.toNat) := by decide
example : ¬ Spec.AsciiText ['退', '订'] ∧ Spec.Bmp ['退', '订'] :=
  ⟨by decide, by unfold Spec.Bmp; decide⟩

/-- The longest texts do not: with 160 ASCII characters or more, or 140 bytes of UTF-16 or more, the
content of the one packet that is sent says that it is the first of several, and holds at most 154 (134)
bytes of the text. -/
theorem cmpp_mo_long_fails (ac : AuthConf) (phone dest sid : Bytes) (cs : List Char) (seq : UInt32)
    (id : UInt64) (g : UInt8)
    (hlong : if Spec.AsciiText cs then 160 ≤ cs.length else 140 ≤ (Spec.utf16 (cs.take 70)).length) :
    ∃ frame part, (newDelivery ac phone (utf8 cs) dest sid seq id).encode g = some frame ∧
      Spec.SelfDelimiting frame ∧
      Spec.parseUdh ((frame.drop (contentAt ac)).take (Spec.moLength cs)) = some part ∧
      part.number = 1 ∧ 2 ≤ part.total ∧ part.ref = g ∧
      part.body <+: (if Spec.AsciiText cs then utf8 cs else Spec.utf16 cs) ∧
      part.body.length ≤ (if Spec.AsciiText cs then 154 else 134) := by
  obtain ⟨frame, pre, post, h1, h2, h3, h4, h5⟩ := mo_split ac phone dest sid cs seq id g
  have hdrop : (frame.drop (contentAt ac)).take (Spec.moLength cs) =
      pad (Spec.moLength cs) (if (Spec.moEncoded cs).length < (if Spec.AsciiText cs then 160 else 140)
        then Spec.moEncoded cs else
        Spec.udhHeader g (UInt8.ofNat (((Spec.moEncoded cs).length +
          ((if Spec.AsciiText cs then 160 else 140) - 6) - 1) /
          ((if Spec.AsciiText cs then 160 else 140) - 6))) 1 ++
          (Spec.moEncoded cs).take ((if Spec.AsciiText cs then 160 else 140) - 6)) := by
    rw [h3, ← h4, ← List.singleton_append, ← List.append_assoc, List.drop_left' (by simp),
      List.take_left' (by simp)]
  by_cases ha : Spec.AsciiText cs
  · simp only [if_pos ha] at *
    have hlen : (Spec.moEncoded cs).length = 160 := by
      unfold Spec.moEncoded Spec.moKept
      rw [if_pos ha, if_pos ha, ← utf8_ascii_take cs ha, List.length_take, utf8_ascii_length cs ha]
      omega
    have hml : Spec.moLength cs = 160 := by
      unfold Spec.moLength Spec.moKept
      rw [if_pos ha, if_pos ha, List.length_take]; omega
    have hpre : Spec.moEncoded cs <+: utf8 cs := by
      unfold Spec.moEncoded Spec.moKept
      rw [if_pos ha, if_pos ha, ← utf8_ascii_take cs ha]
      exact List.take_prefix _ _
    rw [if_neg (by omega), hlen, hml, pad_eq_self (by simp [Spec.udhHeader, hlen])] at hdrop
    refine ⟨frame, ⟨g, 2, 1, (Spec.moEncoded cs).take 154⟩, h1, h2, ?_, rfl,
      (by decide : (2 : UInt8) ≤ 2), rfl, (List.take_prefix _ _).trans hpre, by simp; omega⟩
    rw [hml, hdrop]
    rfl
  · simp only [if_neg ha] at *
    have henc : Spec.moEncoded cs = Spec.utf16 (cs.take 70) := by
      unfold Spec.moEncoded Spec.moKept
      rw [if_neg ha, if_neg ha]
    have hml : Spec.moLength cs = 2 * (cs.take 70).length := by
      unfold Spec.moLength Spec.moKept
      rw [if_neg ha, if_neg ha]
    have hpre : Spec.utf16 (cs.take 70) <+: Spec.utf16 cs := by
      refine ⟨Spec.utf16 (cs.drop 70), ?_⟩
      unfold Spec.utf16
      rw [← List.flatMap_append, ← List.map_append, List.take_append_drop]
    have hub : (Spec.utf16 (cs.take 70)).length ≤ 4 * (cs.take 70).length := by
      generalize cs.take 70 = l
      induction l with
      | nil => simp [Spec.utf16]
      | cons c l ih =>
        have e : (Spec.utf16 (c :: l)).length = (utf16Enc c.toNat).length + (Spec.utf16 l).length := by
          simp [Spec.utf16]
        have : (utf16Enc c.toNat).length ≤ 4 := by unfold utf16Enc; split <;> simp
        rw [e, List.length_cons]; omega
    have hk70 : (cs.take 70).length ≤ 70 := by simp; omega
    rw [henc, if_neg (by omega)] at hdrop
    generalize hu : Spec.utf16 (cs.take 70) = u at *
    generalize (cs.take 70).length = k at *
    obtain ⟨n, hn⟩ : ∃ n, (u.length + (140 - 6) - 1) / (140 - 6) = n := ⟨_, rfl⟩
    have hn2 : 2 ≤ n ∧ n ≤ 3 := by omega
    have hu8 : 2 ≤ UInt8.ofNat n := by
      rw [UInt8.le_iff_toNat_le, u8_ofNat_toNat (by omega)]; exact hn2.1
    rw [hn] at hdrop
    have hcontent : (Spec.udhHeader g (UInt8.ofNat n) 1 ++ u.take (140 - 6)).length = 140 := by
      simp [Spec.udhHeader]; omega
    have hmle : Spec.moLength cs ≤ 140 := by omega
    have hm6 : 70 ≤ Spec.moLength cs := by omega
    have hpad : pad (Spec.moLength cs) (Spec.udhHeader g (UInt8.ofNat n) 1 ++ u.take (140 - 6)) =
        Spec.udhHeader g (UInt8.ofNat n) 1 ++ u.take (Spec.moLength cs - 6) := by
      rw [pad, hcontent, List.take_append, show Spec.moLength cs - 140 = 0 by omega]
      rw [List.take_of_length_le (by simp [Spec.udhHeader]; omega)]
      simp only [Spec.udhHeader, List.length_cons, List.length_nil, List.take_take]
      rw [show min (Spec.moLength cs - (0 + 1 + 1 + 1 + 1 + 1 + 1)) (140 - 6) = Spec.moLength cs - 6 by omega]
      simp [zeros]
    rw [hpad] at hdrop
    refine ⟨frame, ⟨g, UInt8.ofNat n, 1, u.take (Spec.moLength cs - 6)⟩, h1, h2, ?_, rfl, hu8, rfl,
      (List.take_prefix _ _).trans hpre, by simp; omega⟩
    rw [hdrop]
    rfl

set_option maxRecDepth 20000 in
example : ¬ Spec.AsciiText (List.replicate 70 '退') ∧ Spec.AsciiText (List.replicate 160 'A') := by decide

/-- A short text with a character outside the basic plane (an emoji) is cut: the length byte counts two
bytes for each character, so the content holds only the beginning of the encoded text. -/
theorem cmpp_mo_astral_fails (ac : AuthConf) (phone dest sid : Bytes) (cs : List Char) (seq : UInt32)
    (id : UInt64) (g : UInt8) (hn : ¬ Spec.Bmp cs) (hlen : (Spec.utf16 cs).length < 140) :
    ∃ frame, (newDelivery ac phone (utf8 cs) dest sid seq id).encode g = some frame ∧
      Spec.SelfDelimiting frame ∧
      frame[contentAt ac - 1]? = some (UInt8.ofNat (2 * cs.length)) ∧
      (frame.drop (contentAt ac)).take (2 * cs.length) = (Spec.utf16 cs).take (2 * cs.length) ∧
      2 * cs.length < (Spec.utf16 cs).length := by
  have ha : ¬ Spec.AsciiText cs := fun h => hn fun c hc => by have := h c hc; omega
  obtain ⟨hl1, hl2⟩ := utf16_length cs
  have hlt : 2 * cs.length < (Spec.utf16 cs).length := by
    rcases Nat.lt_or_eq_of_le hl1 with h | h
    · exact h
    · exact absurd (hl2.1 h.symm) hn
  have hkept : Spec.moKept cs = cs := by
    unfold Spec.moKept
    rw [if_neg ha]
    exact List.take_of_length_le (by omega)
  have henc : Spec.moEncoded cs = Spec.utf16 cs := by
    unfold Spec.moEncoded; rw [if_neg ha, hkept]
  have hml : Spec.moLength cs = 2 * cs.length := by
    unfold Spec.moLength; rw [if_neg ha, hkept]
  obtain ⟨frame, pre, post, h1, h2, h3, h4, h5⟩ := mo_split ac phone dest sid cs seq id g
  simp only [henc, hml, if_neg ha, if_pos hlen] at h3
  have hpad : pad (2 * cs.length) (Spec.utf16 cs) = (Spec.utf16 cs).take (2 * cs.length) := by
    rw [pad, show 2 * cs.length - (Spec.utf16 cs).length = 0 by omega]
    simp [zeros]
  refine ⟨frame, h1, h2, ?_, ?_, hlt⟩
  · rw [h3, ← h4, Nat.add_sub_cancel]
    simp
  · rw [h3, ← h4, ← List.singleton_append, ← List.append_assoc, List.drop_left' (by simp),
      List.take_left' (by simp), hpad]

example : ¬ Spec.Bmp ['😀'] ∧ (Spec.utf16 ['😀']).length < 140 :=
  ⟨by unfold Spec.Bmp; decide, by decide⟩

end Cmpp

namespace Smgp

/-- Only the first 70 characters of a text count. -/
theorem newDeliver_take (gbEnc : Bytes → Option Bytes) (ac : AuthConf) (phone destNo : Bytes)
    (cs : List Char) (seq : UInt32) (msgId : Bytes) (clock : Clock) :
    newDeliver gbEnc ac phone destNo (utf8 cs) seq msgId clock =
      newDeliver gbEnc ac phone destNo (utf8 (cs.take 70)) seq msgId clock := by
  have h : ∀ l : List Char, (if (runes (utf8 l)).length > 70 then
      ((runes (utf8 l)).take 70).flatMap utf8Enc else utf8 l) = utf8 (l.take 70) := by
    intro l
    rw [runes_take_utf8]
    have hr : (runes (utf8 l)).length = l.length := by rw [runes_utf8, List.length_map]
    by_cases h : l.length > 70
    · rw [hr, if_pos h]
    · rw [hr, if_neg h, List.take_of_length_le (by omega)]
  unfold newDeliver
  simp only [h, List.take_take, Nat.min_self]

/-- SMGP, for every text: the receiver gets the first 70 characters, provided the coder can write them in
at most 255 bytes, with the sender's number and the number it was sent to. -/
theorem smgp_mo_text_partial (gbEnc gbDec : Bytes → Option Bytes)
    (hgb : ∀ x b, gbEnc x = some b → gbDec b = some x) (ac : AuthConf) (phone destNo : Bytes)
    (cs : List Char) (data : Bytes) (seq : UInt32) (msgId : Bytes) (clock : Clock) (spare : Bytes)
    (hid : msgId.length = 10) (he : gbEnc (utf8 (cs.take 70)) = some data) (hlen : data.length ≤ 255) :
    ∃ frame r, (newDeliver gbEnc ac phone destNo (utf8 cs) seq msgId clock).encode = some frame ∧
      Spec.SelfDelimiting frame ∧ recv (Delivery.decode gbDec ac.version) frame spare = some (some r) ∧
      r.msgContent = utf8 (cs.take 70) ∧ r.isReport = 0 ∧
      r.srcTermID = Spec.slot 21 phone ∧ r.destTermID = Spec.slot 21 (ac.smsDisplayNo ++ destNo) := by
  rw [newDeliver_take]
  obtain ⟨frame, r, h1, h2, h3, h4, _, h5, _, _, h6, h7⟩ := smgp_newDeliver_delivered gbEnc gbDec hgb ac
    phone destNo (utf8 (cs.take 70)) data seq msgId clock spare hid
    (by rw [runes_utf8, List.length_map]; simp; omega) he hlen
  exact ⟨frame, r, h1, h2, h3, h4, h5, h6, h7⟩

example : (utf8 ((List.replicate 80 'A').take 70)).length ≤ 255 := by decide

end Smgp

namespace Sgip

/-- SGIP, for every text: the receiver gets the first 160 ASCII characters, or the first 140 bytes of
UTF-16, which are the first 70 characters if all characters are of one unit. -/
theorem sgip_mo_text (ac : AuthConf) (phone destNo : Bytes) (cs : List Char) (seq : Seq3)
    (spare : Bytes) (hph : Spec.Fits 21 phone) (hd1 : Spec.Fits 21 (ac.smsDisplayNo ++ destNo)) :
    ∃ frame r, (newDeliver ac phone (utf8 cs) destNo seq).encode = some frame ∧
      Spec.SelfDelimiting frame ∧ recv Deliver.decode frame spare = some r ∧
      r.userNumber = phone ∧
      (Spec.AsciiText cs → r.messageCoding = 0 ∧ r.messageContent = utf8 (cs.take 160)) ∧
      (¬ Spec.AsciiText cs → r.messageCoding = 8 ∧ r.messageContent = (Spec.utf16 cs).take 140 ∧
        (Spec.Bmp cs → ucs2ToUtf8 r.messageContent = utf8 (cs.take 70))) := by
  obtain ⟨d, hd⟩ : ∃ d, newDeliver ac phone (utf8 cs) destNo seq = d := ⟨_, rfl⟩
  have hle := deliverText_le (utf8 cs)
  have hd' := hd
  unfold newDeliver at hd'
  have e1 : d.userNumber = phone := by rw [← hd']
  have e2 : d.spNumber = if ac.smsDisplayNo <+: destNo then destNo else ac.smsDisplayNo ++ destNo := by
    rw [← hd']
    simp only [List.isPrefixOf_iff_prefix]
  have e3 : d.messageContent = deliverText (utf8 cs) := by rw [← hd']
  have e4 : d.messageLength.toNat = (deliverText (utf8 cs)).length := by
    rw [← hd']; show (UInt32.ofNat _).toNat = _; rw [UInt32.toNat_ofNat']; omega
  have e5 : d.hdr.packetLength.toNat = 77 + (deliverText (utf8 cs)).length := by
    rw [← hd']
    show (77 + UInt32.ofNat _).toNat = _
    have e : (77 : UInt32).toNat = 77 := rfl
    rw [UInt32.toNat_add, UInt32.toNat_ofNat', e]; omega
  have e6 : d.messageCoding = msgFmt (utf8 cs) := by rw [← hd']
  have hfit : Spec.Sgip.DeliverFits d := by
    refine ⟨e1 ▸ hph, ?_, by rw [← hd']; simp, by rw [e3, e4], by rw [length_deliverBody, e5, e3]; omega⟩
    rw [e2]
    split
    · have h2 := hd1.2
      have h1 := hd1.1
      simp only [List.length_append, List.mem_append, not_or] at h1 h2
      exact ⟨by omega, h2.2⟩
    · exact hd1
  obtain ⟨frame, h1, _, h3, h4⟩ := sgip_deliver_roundtrip d spare hfit
  rw [hd]
  refine ⟨frame, _, h1, h3, h4, e1, ?_, ?_⟩
  · intro ha
    have hf := (msgFmt_ascii_iff cs).1.2 ha
    refine ⟨by show d.messageCoding = 0; rw [e6, hf], ?_⟩
    show d.messageContent = _
    rw [e3, deliverText, hf, if_neg (by decide), utf8_ascii_take cs ha]
  · intro ha
    have hf : msgFmt (utf8 cs) = 8 := by
      refine (msgFmt_ascii_iff cs).2.2 ?_
      unfold Spec.AsciiText at ha
      simp only [Classical.not_forall, not_imp, Nat.not_lt] at ha
      obtain ⟨c, h1, h2⟩ := ha
      exact ⟨c, h1, h2⟩
    have hc : d.messageContent = (Spec.utf16 cs).take 140 := by
      rw [e3, deliverText, hf, if_pos rfl, ucs2_of_text, Option.getD_some]
    refine ⟨by show d.messageCoding = 8; rw [e6, hf], hc, fun hb => ?_⟩
    show ucs2ToUtf8 d.messageContent = _
    have htake : (Spec.utf16 cs).take 140 = Spec.utf16 (cs.take 70) := by
      have hsplit : Spec.utf16 cs = Spec.utf16 (cs.take 70) ++ Spec.utf16 (cs.drop 70) := by
        unfold Spec.utf16
        rw [← List.flatMap_append, ← List.map_append, List.take_append_drop]
      have hl := (utf16_length (cs.take 70)).2.2 (fun c hc => hb c (List.mem_of_mem_take hc))
      by_cases h : cs.length ≤ 70
      · have hl' := (utf16_length cs).2.2 hb
        rw [List.take_of_length_le (by omega), List.take_of_length_le h]
      · rw [hsplit, List.take_left' (by rw [hl, List.length_take]; omega)]
    obtain ⟨u, hu1, hu2, _⟩ := ucs2_roundtrip (cs.take 70)
    rw [ucs2_of_text, Option.some.injEq] at hu1
    rw [hc, htake, hu1, hu2]

end Sgip
end Gosms
