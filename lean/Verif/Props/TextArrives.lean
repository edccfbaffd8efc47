import Verif.Props.SubmitContent
import Verif.Props.MoText
import Verif.Props.Bodies

/-!
# C132: a text of one packet arrives as it was typed

From the text given to `NewSubmit` of the client to the packet the server's decoder makes of the bytes: coding, content,
recipients and sequence number. The texts for which it fails are named, character by character.
-/

namespace Gosms

namespace Spec

/-- How a text is carried: the coding that is announced, and the bytes. -/
def carried (cs : List Char) : UInt8 × Bytes := if AsciiText cs then (0, utf8 cs) else (8, utf16 cs)

/-- A text that is shorter than what one packet can hold (160 bytes of ASCII, 140 bytes of UTF-16). -/
def BelowPacket (cs : List Char) : Prop := if AsciiText cs then cs.length < 160 else (utf16 cs).length < 140

/-- A text that fills one packet. -/
def FillsPacket (cs : List Char) : Prop := if AsciiText cs then cs.length = 160 else (utf16 cs).length = 140

instance (cs : List Char) : Decidable (BelowPacket cs) := by unfold BelowPacket; infer_instance
instance (cs : List Char) : Decidable (FillsPacket cs) := by unfold FillsPacket; infer_instance

/-- Texts that look like (the beginning of) a concatenation header when they are put into a packet: no text at all; an
ASCII text of control characters 5, 0, 3 or a beginning of these alone; and `U+0500` alone or followed by a character
between `U+0300` and `U+03FF` (accents, and most of Greek). -/
def LikeHeader (cs : List Char) : Prop :=
  cs = [] ∨
  (AsciiText cs ∧ (cs = ['\x05'] ∨ cs = ['\x05', '\x00'] ∨ ['\x05', '\x00', '\x03'] <+: cs)) ∨
  cs = ['Ԁ'] ∨
  ∃ c rest, cs = 'Ԁ' :: c :: rest ∧ 0x300 ≤ c.toNat ∧ c.toNat < 0x400

end Spec

/-! ## The bytes of a text -/

theorem msgFmt_carried (cs : List Char) : msgFmt (utf8 cs) = (Spec.carried cs).1 := by
  unfold Spec.carried
  split
  · next h => exact (msgFmt_ascii_iff cs).1.2 h
  · next h =>
    refine (msgFmt_ascii_iff cs).2.2 ?_
    unfold Spec.AsciiText at h
    simp only [Classical.not_forall] at h
    obtain ⟨c, hc, hn⟩ := h
    exact ⟨c, hc, by omega⟩

theorem slices_carried (g : UInt8) (cs : List Char) (h : Spec.BelowPacket cs) :
    msgSlices g (msgFmt (utf8 cs)) (utf8 cs) = some [(Spec.carried cs).2] := by
  rw [msgFmt_carried]
  unfold Spec.BelowPacket at h
  unfold Spec.carried
  split
  · next ha =>
    rw [if_pos ha] at h
    exact (msgSlices_short g 0 cs).2 (by decide) (by rw [utf8_ascii_length cs ha]; exact h)
  · next ha =>
    rw [if_neg ha] at h
    exact (msgSlices_short g 8 cs).1 rfl h

theorem char_of_toNat {c d : Char} (h : c.toNat = d.toNat) : c = d :=
  Char.ext (UInt32.toNat_inj.1 h)

theorem ascii_byte {c : Char} (hc : c.toNat < 128) (d : Char) (hd : d.toNat < 128) :
    UInt8.ofNat c.toNat = UInt8.ofNat d.toNat ↔ c = d := by
  refine ⟨fun h => char_of_toNat ?_, fun h => h ▸ rfl⟩
  have := congrArg UInt8.toNat h
  simp only [UInt8.toNat_ofNat'] at this
  omega

theorem utf8_cons_ascii {c : Char} (hc : c.toNat < 128) (cs : List Char) :
    utf8 (c :: cs) = UInt8.ofNat c.toNat :: utf8 cs := by
  rw [utf8_cons, utf8Enc, if_pos hc]; rfl

theorem torn_or_headed (a b d : UInt8) (r : Bytes) :
    (Spec.Cmpp.Plain (a :: b :: d :: r) ↔ ¬ (a = 5 ∧ b = 0 ∧ d = 3)) ∧
    (Spec.Cmpp.Plain [a, b] ↔ ¬ (a = 5 ∧ b = 0)) ∧ (Spec.Cmpp.Plain [a] ↔ ¬ a = 5) ∧ ¬ Spec.Cmpp.Plain [] := by
  unfold Spec.Cmpp.Plain
  simp only [List.cons_prefix_cons, List.nil_prefix, List.prefix_nil, and_true, reduceCtorEq, and_false]
  refine ⟨?_, ?_, ?_, ?_⟩
  · constructor
    · rintro ⟨_, h2⟩ ⟨rfl, rfl, rfl⟩; exact h2 ⟨rfl, rfl, rfl⟩
    · intro h
      refine ⟨?_, ?_⟩
      · rintro ⟨rfl, rfl, rfl, _⟩; exact h ⟨rfl, rfl, rfl⟩
      · rintro ⟨rfl, rfl, rfl⟩; exact h ⟨rfl, rfl, rfl⟩
  · simp
  · simp
  · simp

theorem toBE_two (v : Nat) : toBE 2 v = [UInt8.ofNat (v / 256 % 256), UInt8.ofNat (v % 256)] := rfl

theorem first_letter : 'Ԁ'.toNat = 0x500 := rfl

theorem utf16_first (c : Char) :
    ∃ a b t, utf16Enc c.toNat = a :: b :: t ∧ ((a = 5 ∧ b = 0) ↔ c = 'Ԁ') ∧ (c = 'Ԁ' → t = []) := by
  have hs := char_scalar c
  have key : c = 'Ԁ' ↔ c.toNat = 0x500 := ⟨fun h => h ▸ first_letter, fun h => char_of_toNat (h.trans first_letter.symm)⟩
  rw [key]
  generalize c.toNat = n at *
  unfold utf16Enc
  split
  · next h =>
    rw [toBE_two]
    refine ⟨_, _, [], rfl, ?_, fun _ => rfl⟩
    rw [← UInt8.toNat_inj, ← UInt8.toNat_inj]
    simp only [UInt8.toNat_ofNat', UInt8.reduceToNat]
    omega
  · next h =>
    rw [toBE_two, toBE_two, List.cons_append, List.cons_append]
    refine ⟨_, _, _, rfl, ?_, fun e => by omega⟩
    rw [← UInt8.toNat_inj, ← UInt8.toNat_inj]
    simp only [UInt8.toNat_ofNat', UInt8.reduceToNat]
    omega

theorem utf16_third (c : Char) :
    ∃ x y, utf16Enc c.toNat = x :: y ∧ (x = 3 ↔ 0x300 ≤ c.toNat ∧ c.toNat < 0x400) := by
  have hs := char_scalar c
  generalize c.toNat = n at *
  unfold utf16Enc
  split
  · next h =>
    rw [toBE_two]
    refine ⟨_, _, rfl, ?_⟩
    rw [← UInt8.toNat_inj]
    simp only [UInt8.toNat_ofNat', UInt8.reduceToNat]
    omega
  · next h =>
    rw [toBE_two, toBE_two, List.cons_append]
    refine ⟨_, _, rfl, ?_⟩
    rw [← UInt8.toNat_inj]
    simp only [UInt8.toNat_ofNat', UInt8.reduceToNat]
    omega

/-- The content made of a text is plain exactly if the text is not like a header. -/
theorem plain_carried (cs : List Char) : Spec.Cmpp.Plain (Spec.carried cs).2 ↔ ¬ Spec.LikeHeader cs := by
  unfold Spec.carried Spec.LikeHeader
  by_cases ha : Spec.AsciiText cs
  · have hno : ¬ (cs = ['Ԁ'] ∨ ∃ c rest, cs = 'Ԁ' :: c :: rest ∧ 0x300 ≤ c.toNat ∧ c.toNat < 0x400) := by
      rintro (rfl | ⟨c, rest, rfl, _⟩)
      · exact absurd (ha 'Ԁ' (by simp)) (by rw [first_letter]; omega)
      · exact absurd (ha 'Ԁ' (by simp)) (by rw [first_letter]; omega)
    rw [if_pos ha]
    have e1 : (cs = [] ∨ (Spec.AsciiText cs ∧ (cs = ['\x05'] ∨ cs = ['\x05', '\x00'] ∨ ['\x05', '\x00', '\x03'] <+: cs)) ∨
        cs = ['Ԁ'] ∨ ∃ c rest, cs = 'Ԁ' :: c :: rest ∧ 0x300 ≤ c.toNat ∧ c.toNat < 0x400) ↔
        (cs = [] ∨ cs = ['\x05'] ∨ cs = ['\x05', '\x00'] ∨ ['\x05', '\x00', '\x03'] <+: cs) := by
      constructor
      · rintro (h | ⟨_, h⟩ | h)
        · exact Or.inl h
        · exact Or.inr h
        · exact absurd h hno
      · rintro (h | h)
        · exact Or.inl h
        · exact Or.inr (Or.inl ⟨ha, h⟩)
    rw [e1]
    have e5 : ∀ c : Char, c.toNat < 128 → (UInt8.ofNat c.toNat = 5 ↔ c = '\x05') := fun c hc => ascii_byte hc '\x05' (by decide)
    have e0 : ∀ c : Char, c.toNat < 128 → (UInt8.ofNat c.toNat = 0 ↔ c = '\x00') := fun c hc => ascii_byte hc '\x00' (by decide)
    have e3 : ∀ c : Char, c.toNat < 128 → (UInt8.ofNat c.toNat = 3 ↔ c = '\x03') := fun c hc => ascii_byte hc '\x03' (by decide)
    match cs, ha with
    | [], _ => simp [(torn_or_headed 0 0 0 []).2.2.2, utf8]
    | [x], ha =>
      have hx := ha x (by simp)
      rw [utf8_cons_ascii hx, show utf8 [] = [] from rfl, (torn_or_headed _ 0 0 []).2.2.1, e5 x hx]
      simp
    | [x, y], ha =>
      have hx := ha x (by simp)
      have hy := ha y (by simp)
      rw [utf8_cons_ascii hx, utf8_cons_ascii hy, show utf8 [] = [] from rfl, (torn_or_headed _ _ 0 []).2.1, e5 x hx, e0 y hy]
      simp
    | x :: y :: z :: r, ha =>
      have hx := ha x (by simp)
      have hy := ha y (by simp)
      have hz := ha z (by simp)
      rw [utf8_cons_ascii hx, utf8_cons_ascii hy, utf8_cons_ascii hz, (torn_or_headed _ _ _ _).1, e5 x hx, e0 y hy, e3 z hz]
      simp [List.cons_prefix_cons, eq_comm]
  · rw [if_neg ha]
    match cs, ha with
    | [], ha => exact absurd (fun c hc => by cases hc) ha
    | c :: rest, ha =>
      have hu : Spec.utf16 (c :: rest) = utf16Enc c.toNat ++ Spec.utf16 rest := rfl
      have e1 : (c :: rest = [] ∨ (Spec.AsciiText (c :: rest) ∧ (c :: rest = ['\x05'] ∨ c :: rest = ['\x05', '\x00'] ∨
            ['\x05', '\x00', '\x03'] <+: c :: rest)) ∨
          c :: rest = ['Ԁ'] ∨ ∃ c' rest', c :: rest = 'Ԁ' :: c' :: rest' ∧ 0x300 ≤ c'.toNat ∧ c'.toNat < 0x400) ↔
          (c = 'Ԁ' ∧ (rest = [] ∨ ∃ c' rest', rest = c' :: rest' ∧ 0x300 ≤ c'.toNat ∧ c'.toNat < 0x400)) := by
        constructor
        · rintro (h | ⟨h, _⟩ | h | ⟨c', rest', h, h2⟩)
          · cases h
          · exact absurd h ha
          · injection h with h1 h2; exact ⟨h1, Or.inl h2⟩
          · injection h with h1 h3; exact ⟨h1, Or.inr ⟨c', rest', h3, h2⟩⟩
        · rintro ⟨rfl, rfl | ⟨c', rest', rfl, h2⟩⟩
          · exact Or.inr (Or.inr (Or.inl rfl))
          · exact Or.inr (Or.inr (Or.inr ⟨c', rest', rfl, h2⟩))
      rw [e1]
      obtain ⟨a, b, t, hab, hc, ht⟩ := utf16_first c
      rw [hu, hab]
      by_cases h5 : c = 'Ԁ'
      · rw [ht h5]
        obtain ⟨rfl, rfl⟩ := hc.2 h5
        match rest with
        | [] => simp [Spec.utf16, (torn_or_headed 5 0 0 []).2.1, h5]
        | c' :: rest' =>
          have hu' : Spec.utf16 (c' :: rest') = utf16Enc c'.toNat ++ Spec.utf16 rest' := rfl
          obtain ⟨x, y, hxy, h3⟩ := utf16_third c'
          rw [hu', hxy]
          show Spec.Cmpp.Plain (5 :: 0 :: x :: (y ++ Spec.utf16 rest')) ↔ _
          rw [(torn_or_headed _ _ _ _).1, h3]
          simp [h5]
      · have hn : ¬ (a = 5 ∧ b = 0) := fun h => h5 (hc.1 h)
        have : Spec.Cmpp.Plain (a :: b :: t ++ Spec.utf16 rest) := by
          show Spec.Cmpp.Plain (a :: b :: (t ++ Spec.utf16 rest))
          cases ht2 : t ++ Spec.utf16 rest with
          | nil => exact (torn_or_headed a b 0 []).2.1.2 hn
          | cons x y => exact (torn_or_headed a b x y).1.2 fun h => hn ⟨h.1, h.2.1⟩
        exact ⟨fun _ h => h5 h.1, fun _ => this⟩

/-- A text as long as a packet, or longer, is cut into several. -/
theorem slices_full (g : UInt8) (cs : List Char) (h : ¬ Spec.BelowPacket cs) :
    ∃ slices, msgSlices g (msgFmt (utf8 cs)) (utf8 cs) = some slices ∧ 2 ≤ slices.length := by
  rw [msgFmt_carried]
  unfold Spec.BelowPacket at h
  unfold Spec.carried
  split
  · next ha =>
    rw [if_pos ha] at h
    rw [msgSlices, if_neg (show ¬ (0 : UInt8) = 8 by decide)]
    have hl : 160 ≤ (utf8 cs).length := by rw [utf8_ascii_length cs ha]; omega
    obtain ⟨sl, h1, h2, _⟩ := long_message_slices_wellformed g (utf8 cs) 160 (by decide) hl
    exact ⟨sl, h1, by omega⟩
  · next ha =>
    rw [if_neg ha] at h
    rw [msgSlices, if_pos rfl, ucs2_of_text, Option.getD_some]
    obtain ⟨sl, h1, h2, _⟩ := long_message_slices_wellformed g (Spec.utf16 cs) 140 (by decide) (by omega)
    exact ⟨sl, h1, by omega⟩

/-- A text that fills a packet is cut into two. -/
theorem slices_filled (g : UInt8) (cs : List Char) (h : Spec.FillsPacket cs) (slices : List Bytes)
    (hs : msgSlices g (msgFmt (utf8 cs)) (utf8 cs) = some slices) : slices.length = 2 := by
  rw [msgFmt_carried] at hs
  unfold Spec.FillsPacket at h
  unfold Spec.carried at hs
  split at hs
  · next ha =>
    rw [if_pos ha] at h
    rw [msgSlices, if_neg (show ¬ (0 : UInt8) = 8 by decide)] at hs
    have hl : (utf8 cs).length = 160 := by rw [utf8_ascii_length cs ha, h]
    obtain ⟨sl, h1, h2, _⟩ := long_message_slices_wellformed g (utf8 cs) 160 (by decide) (by omega)
    have := Option.some.inj (h1.symm.trans hs)
    subst this
    omega
  · next ha =>
    rw [if_neg ha] at h
    rw [msgSlices, if_pos rfl, ucs2_of_text, Option.getD_some] at hs
    obtain ⟨sl, h1, h2, _⟩ := long_message_slices_wellformed g (Spec.utf16 cs) 140 (by decide) (by omega)
    have := Option.some.inj (h1.symm.trans hs)
    subst this
    omega

theorem serve_torn (gbDec : Bytes → Option Bytes) (p : Proto) (ver : UInt8) (cmd seq : UInt32) (body : Bytes)
    (hc : (cmd, Handlers.Kind.submit) ∈ Handlers.chain p) (h : Handlers.decodes gbDec ver seq body p .submit = false) :
    Handlers.serve gbDec p .login ver cmd seq body = .crash := by
  rw [Handlers.serve_handled gbDec p .login ver cmd seq body .submit hc]
  unfold Handlers.handle
  rw [if_neg (by simp), h]
  rfl

/-! ## CMPP -/

namespace Cmpp

/-- **C132, CMPP: exactly which texts of one packet arrive.** A text below the size of a packet is sent as one packet. The
server reads from it the coding, the text, the recipients and the sequence number the client put in, unless the text is
like a concatenation header; then it does not read this text. -/
theorem cmpp_text_arrives_exactly (ac : AuthConf) (phones : List Bytes) (cs : List Char) (seq : UInt32)
    (opts : List OptionFunc) (g : UInt8) (expiry : Clock) (seqs : Nat → UInt32) (spare : Bytes)
    (hp : phones.length ≤ if Spec.major ac.version = 3 then 255 else 12) (hcs : Spec.BelowPacket cs) :
    ∃ m frame, newSubmit ac phones (utf8 cs) seq opts g expiry seqs = some [m] ∧ m.encode = some frame ∧
      ((∃ r, recv (Submit.decode ac.version) frame spare = some r ∧ (r.msgFmt, r.msgContent) = Spec.carried cs ∧
          r.hdr.sequenceId = seq ∧ r.destUsrTl.toNat = phones.length ∧
          r.termIds = phones.flatMap (pad (Spec.Cmpp.numberWidth ac.version)) ∧ r.pkTotal = 1 ∧ r.pkNumber = 1 ∧
          r.tpUdhi = 0) ↔ ¬ Spec.LikeHeader cs) := by
  have hp' : phones.length ≤ 255 := by split at hp <;> omega
  obtain ⟨msgs, slices, h1, h2, h3, h4⟩ := cmpp_newSubmit ac phones (utf8 cs) seq opts g expiry seqs hp'
  rw [slices_carried g cs hcs, Option.some.injEq] at h2
  subst h2
  match msgs, h3 with
  | [m], _ =>
    obtain ⟨hok, hv, _, hseq, hti, hn, hc, hf, hpt, hpn, hud, _⟩ := h4 0 (by simp) (by simp)
    simp only [List.getElem_cons_zero, List.length_singleton, if_true] at hok hv hseq hti hn hc hf hpt hpn hud
    have hw : Spec.major m.version = 3 ∨ m.destUsrTl.toNat ≤ 12 := by
      rw [hv, hn]
      by_cases h : Spec.major ac.version = 3
      · exact Or.inl h
      · rw [if_neg h] at hp; exact Or.inr hp
    obtain ⟨frame, e1, e2, e3, e4⟩ := cmpp_submit_content_exactly m spare hok hw
    rw [hv] at e2 e3 e4
    refine ⟨m, frame, h1, e1, ?_⟩
    rw [← plain_carried, ← hc]
    constructor
    · rintro ⟨r, hr, hrc, _⟩
      rcases (content_cases m.msgContent).1 with h | h | h
      · exact h
      · rw [e3 h] at hr
        injection hr with hr
        subst hr
        have : ucs2ToUtf8 (m.msgContent.drop 6) = (Spec.carried cs).2 := congrArg Prod.snd hrc
        rw [← hc] at this
        exact absurd this (headed_changes h)
      · rw [e4 h] at hr; cases hr
    · intro h
      refine ⟨_, e2 h, ?_, hseq, hn, hti, hpt, hpn, hud⟩
      show (m.msgFmt, m.msgContent) = _
      rw [hf, hc, msgFmt_carried]

/-- **C132, CMPP fails for texts like a header.** Such a text ends the server if it is one that breaks off within the
header (`Ԁ` alone, `Ԁ` with one Greek letter, no text at all), from whatever session; otherwise the server reads what
begins with the fourth character, in the wrong coding. -/
theorem cmpp_text_arrives_fails (ac : AuthConf) (phones : List Bytes) (cs : List Char) (seq : UInt32)
    (opts : List OptionFunc) (g : UInt8) (expiry : Clock) (seqs : Nat → UInt32)
    (hp : phones.length ≤ if Spec.major ac.version = 3 then 255 else 12) (hcs : Spec.BelowPacket cs)
    (hh : Spec.LikeHeader cs) :
    ∃ m frame, newSubmit ac phones (utf8 cs) seq opts g expiry seqs = some [m] ∧ m.encode = some frame ∧
      ((Spec.carried cs).2.length < 6 → ∀ gbDec s, Handlers.serve gbDec .cmpp .login ac.version 4 s (frame.drop 12) = .crash) ∧
      (6 ≤ (Spec.carried cs).2.length → ∀ spare, ∃ r, recv (Submit.decode ac.version) frame spare = some r ∧
        r.msgFmt = (Spec.carried cs).1 ∧ r.msgContent = ucs2ToUtf8 ((Spec.carried cs).2.drop 6) ∧
        r.msgContent ≠ (Spec.carried cs).2) := by
  have hp' : phones.length ≤ 255 := by split at hp <;> omega
  obtain ⟨msgs, slices, h1, h2, h3, h4⟩ := cmpp_newSubmit ac phones (utf8 cs) seq opts g expiry seqs hp'
  rw [slices_carried g cs hcs, Option.some.injEq] at h2
  subst h2
  match msgs, h3 with
  | [m], _ =>
    obtain ⟨hok, hv, _, _, _, hn, hc, hf, _⟩ := h4 0 (by simp) (by simp)
    simp only [List.getElem_cons_zero] at hok hv hn hc hf
    have hw : Spec.major m.version = 3 ∨ m.destUsrTl.toNat ≤ 12 := by
      rw [hv, hn]
      by_cases h : Spec.major ac.version = 3
      · exact Or.inl h
      · rw [if_neg h] at hp; exact Or.inr hp
    have hnp : ¬ Spec.Cmpp.Plain m.msgContent := by rw [hc, plain_carried]; exact fun h => h hh
    refine ⟨m, _, h1, submit_encode m hok.total, fun hl gbDec s => ?_, fun hl spare => ?_⟩
    · have ht : Spec.Torn m.msgContent := by
        rcases (content_cases m.msgContent).1 with h | h | h
        · exact absurd h hnp
        · have := h.2; rw [hc] at this; omega
        · exact h
      obtain ⟨frame, e1, _, _, e4⟩ := cmpp_submit_content_exactly m [] hok hw
      obtain rfl := Option.some.inj ((submit_encode m hok.total).symm.trans e1)
      have e5 := e4 ht
      unfold recv at e5
      rw [List.append_nil, hv] at e5
      refine serve_torn gbDec .cmpp ac.version 4 s _ (by decide) ?_
      have hb : ∀ f : Bytes, (⟨f.drop 12, f.length - 12⟩ : Buf) = Buf.exact (f.drop 12) := fun f => by
        rw [Buf.exact, List.length_drop]
      rw [hb] at e5
      show (Submit.decode ac.version s (Buf.exact _)).isSome = false
      rw [← Bool.not_eq_true, submit_needs ac.version s, ← submit_needs ac.version (unpackHead _).2.2, e5]
      simp
    · have hd : Spec.Headed m.msgContent := by
        rcases (content_cases m.msgContent).1 with h | h | h
        · exact absurd h hnp
        · exact h
        · rcases h with h | ⟨_, h⟩
          · have := h.length_le; rw [hc] at this; simp at this; omega
          · rw [hc] at h; omega
      obtain ⟨frame, e1, _, e3, _⟩ := cmpp_submit_content_exactly m spare hok hw
      obtain rfl := Option.some.inj ((submit_encode m hok.total).symm.trans e1)
      have e5 := e3 hd
      rw [hv] at e5
      refine ⟨_, e5, ?_, ?_, ?_⟩
      · show m.msgFmt = _
        rw [hf, msgFmt_carried]
      · show ucs2ToUtf8 (m.msgContent.drop 6) = _
        rw [hc]
      · show ucs2ToUtf8 (m.msgContent.drop 6) ≠ _
        rw [← hc]; exact headed_changes hd

/-- Met by the texts that are sent every day, by Greek ones and by an emoji, and by the texts of both kinds that do not
arrive: `Ԁα` ends the server, `Ԁαβγ` arrives as `γ`. -/
example : Spec.BelowPacket "hello".toList ∧ Spec.BelowPacket "καλημέρα😀".toList ∧ Spec.BelowPacket "Ԁα".toList ∧
    (Spec.carried "Ԁα".toList).2 = [0x05, 0x00, 0x03, 0xb1] ∧ (Spec.carried "Ԁαβγ".toList).2.length = 8 ∧
    ucs2ToUtf8 ((Spec.carried "Ԁαβγ".toList).2.drop 6) = utf8 "γ".toList := by decide +kernel

example : Spec.LikeHeader "Ԁα".toList ∧ Spec.LikeHeader "Ԁαβγ".toList ∧ Spec.LikeHeader [] ∧ Spec.LikeHeader "Ԁ".toList :=
  ⟨Or.inr (Or.inr (Or.inr ⟨'α', [], rfl, by decide, by decide⟩)), Or.inr (Or.inr (Or.inr ⟨'α', ['β', 'γ'], rfl, by decide, by decide⟩)),
   Or.inl rfl, Or.inr (Or.inr (Or.inl rfl))⟩

example : ¬ Spec.LikeHeader "hello".toList ∧ ¬ Spec.LikeHeader "καλημέρα😀".toList := by
  rw [← plain_carried, ← plain_carried]
  decide +kernel

/-- **C132 fails for a text that fills a packet.** A text of exactly the size of one packet is sent as two, and one is sent as a
single packet exactly if it is shorter. -/
theorem cmpp_one_packet_exactly (ac : AuthConf) (phones : List Bytes) (cs : List Char) (seq : UInt32)
    (opts : List OptionFunc) (g : UInt8) (expiry : Clock) (seqs : Nat → UInt32) (hp : phones.length ≤ 255) :
    ∃ msgs, newSubmit ac phones (utf8 cs) seq opts g expiry seqs = some msgs ∧
      (msgs.length = 1 ↔ Spec.BelowPacket cs) ∧ (Spec.FillsPacket cs → msgs.length = 2) := by
  obtain ⟨msgs, slices, h1, h2, h3, _⟩ := cmpp_newSubmit ac phones (utf8 cs) seq opts g expiry seqs hp
  refine ⟨msgs, h1, ?_, fun hf => ?_⟩
  · rw [h3]
    constructor
    · intro h
      apply Classical.byContradiction
      intro hn
      obtain ⟨sl, e1, e2⟩ := slices_full g cs hn
      have := Option.some.inj (e1.symm.trans h2)
      subst this
      omega
    · intro h
      have := Option.some.inj ((slices_carried g cs h).symm.trans h2)
      subst this
      rfl
  · rw [h3]
    exact slices_filled g cs hf slices h2

example : Spec.FillsPacket (List.replicate 160 'a') ∧ Spec.FillsPacket (List.replicate 70 '中') := by decide +kernel

end Cmpp

/-! ## SGIP -/

namespace Sgip

/-- The fields the account and the options set, with the recipients: what `NewSubmit` puts into each packet besides its part
of the text (codec/sgip/submit.go:64-71). -/
def fieldsOf (ac : AuthConf) (phones : List Bytes) (opts : List OptionFunc) (expiry : Clock) (seqs : Nat → Seq3) : Submit :=
  { setOptions ac { hdr := ⟨143, SUBMIT, (seqs 0).1, (seqs 0).2.1, (seqs 0).2.2⟩ } (loadMtOptions opts) expiry with
    userNumber := phones }

/-- **C132, SGIP: exactly which texts of one packet arrive.** -/
theorem sgip_text_arrives_exactly (ac : AuthConf) (phones : List Bytes) (cs : List Char)
    (opts : List OptionFunc) (g : UInt8) (expiry : Clock) (seqs : Nat → Seq3) (spare : Bytes)
    (hp : phones.length ≤ 255) (hcs : Spec.BelowPacket cs)
    (hf : Spec.Sgip.SubmitFits (fieldsOf ac phones opts expiry seqs)) :
    ∃ m frame, newSubmit ac phones (utf8 cs) opts g expiry seqs = some [m] ∧ m.encode = some frame ∧
      ((∃ r, recv Submit.decode frame spare = some r ∧ (r.messageCoding, r.messageContent) = Spec.carried cs ∧
          (r.hdr.seq0, r.hdr.seq1, r.hdr.seq2) = seqs 0 ∧ r.userNumber = phones ∧ r.tpUdhi = 0) ↔
        ¬ Spec.LikeHeader cs) := by
  obtain ⟨msgs, slices, h1, h2, _, h3, h4⟩ := sgip_newSubmit ac phones (utf8 cs) opts g expiry seqs hp
  rw [slices_carried g cs hcs, Option.some.injEq] at h2
  subst h2
  match msgs, h3 with
  | [m], _ =>
    obtain ⟨hok, _, hseq, hu, hc, hm, _, hud, _⟩ := h4 0 (by simp) (by simp)
    simp only [List.getElem_cons_zero, List.length_singleton, if_true] at hok hseq hu hc hm hud
    have hfit := newSubmit_fits ac phones (utf8 cs) opts g expiry seqs [m] h1 hf m (by simp)
    obtain ⟨frame, e1, e2, e3, e4⟩ := sgip_submit_content_exactly m spare hok hfit
    refine ⟨m, frame, h1, e1, ?_⟩
    rw [← plain_carried, ← hc]
    constructor
    · rintro ⟨r, hr, hrc, _⟩
      rcases (content_cases m.messageContent).1 with h | h | h
      · exact h
      · rw [e3 h] at hr
        injection hr with hr
        subst hr
        have : ucs2ToUtf8 (m.messageContent.drop 6) = (Spec.carried cs).2 := congrArg Prod.snd hrc
        rw [← hc] at this
        exact absurd this (headed_changes h)
      · rw [e4 h] at hr; cases hr
    · intro h
      refine ⟨_, e2 h, ?_, hseq, hu, hud⟩
      show (m.messageCoding, m.messageContent) = _
      rw [hm, hc, msgFmt_carried]

/-- **C132, SGIP fails for texts like a header**: one that breaks off within the header ends the server, another arrives
from its fourth character on, in the wrong coding. -/
theorem sgip_text_arrives_fails (ac : AuthConf) (phones : List Bytes) (cs : List Char)
    (opts : List OptionFunc) (g : UInt8) (expiry : Clock) (seqs : Nat → Seq3)
    (hp : phones.length ≤ 255) (hcs : Spec.BelowPacket cs)
    (hf : Spec.Sgip.SubmitFits (fieldsOf ac phones opts expiry seqs)) (hh : Spec.LikeHeader cs) :
    ∃ m frame, newSubmit ac phones (utf8 cs) opts g expiry seqs = some [m] ∧ m.encode = some frame ∧
      ((Spec.carried cs).2.length < 6 → ∀ gbDec ver s, Handlers.serve gbDec .sgip .login ver 3 s (frame.drop 12) = .crash) ∧
      (6 ≤ (Spec.carried cs).2.length → ∀ spare, ∃ r, recv Submit.decode frame spare = some r ∧
        r.messageCoding = (Spec.carried cs).1 ∧ r.messageContent = ucs2ToUtf8 ((Spec.carried cs).2.drop 6) ∧
        r.messageContent ≠ (Spec.carried cs).2) := by
  obtain ⟨msgs, slices, h1, h2, _, h3, h4⟩ := sgip_newSubmit ac phones (utf8 cs) opts g expiry seqs hp
  rw [slices_carried g cs hcs, Option.some.injEq] at h2
  subst h2
  match msgs, h3 with
  | [m], _ =>
    obtain ⟨hok, _, _, _, hc, hm, _⟩ := h4 0 (by simp) (by simp)
    simp only [List.getElem_cons_zero] at hok hc hm
    have hfit := newSubmit_fits ac phones (utf8 cs) opts g expiry seqs [m] h1 hf m (by simp)
    have hnp : ¬ Spec.Cmpp.Plain m.messageContent := by rw [hc, plain_carried]; exact fun h => h hh
    refine ⟨m, _, h1, submit_encode m hok hfit, fun hl gbDec ver s => ?_, fun hl spare => ?_⟩
    · have ht : Spec.Torn m.messageContent := by
        rcases (content_cases m.messageContent).1 with h | h | h
        · exact absurd h hnp
        · have := h.2; rw [hc] at this; omega
        · exact h
      obtain ⟨frame, e1, _, _, e4⟩ := sgip_submit_content_exactly m [] hok hfit
      obtain rfl := Option.some.inj ((submit_encode m hok hfit).symm.trans e1)
      have e5 := e4 ht
      unfold recv at e5
      rw [List.append_nil] at e5
      refine serve_torn gbDec .sgip ver 3 s _ (by decide) ?_
      have hb : ∀ f : Bytes, (⟨f.drop 12, f.length - 12⟩ : Buf) = Buf.exact (f.drop 12) := fun f => by
        rw [Buf.exact, List.length_drop]
      rw [hb] at e5
      show (Submit.decode s (Buf.exact _)).isSome = false
      rw [← Bool.not_eq_true, submit_needs s, ← submit_needs (unpackHead _).2.2, e5]
      simp
    · have hd : Spec.Headed m.messageContent := by
        rcases (content_cases m.messageContent).1 with h | h | h
        · exact absurd h hnp
        · exact h
        · rcases h with h | ⟨_, h⟩
          · have := h.length_le; rw [hc] at this; simp at this; omega
          · rw [hc] at h; omega
      obtain ⟨frame, e1, _, e3, _⟩ := sgip_submit_content_exactly m spare hok hfit
      obtain rfl := Option.some.inj ((submit_encode m hok hfit).symm.trans e1)
      refine ⟨_, e3 hd, ?_, ?_, ?_⟩
      · show m.messageCoding = _
        rw [hm, msgFmt_carried]
      · show ucs2ToUtf8 (m.messageContent.drop 6) = _
        rw [hc]
      · show ucs2ToUtf8 (m.messageContent.drop 6) ≠ _
        rw [← hc]; exact headed_changes hd

/-- The fields of a plain configuration fit. -/
example : Spec.Sgip.SubmitFits (fieldsOf { clientId := ascii "10690" } [ascii "8613800138000"] []
    { year := 22, month := 1, day := 1, hour := 12, minute := 0, second := 0 } (fun i => (1, 2, UInt32.ofNat i))) :=
  ⟨by decide, by decide, by decide, by decide, by decide, by decide, by decide, by decide, by decide, by decide⟩

end Sgip

/-! ## SMGP -/

namespace Smgp

/-- **C132, SMGP.** A text whose GB18030 bytes are fewer than 140 and not like a concatenation header arrives, with every
recipient (`smgp_newSubmit_delivered` gives the same with the sequence number). If the bytes break off within such a header
(there is no text, or one of control characters), sending the text ends the server. -/
theorem smgp_text_arrives_partial (gbEnc gbDec : Bytes → Option Bytes)
    (hgb : ∀ x b, gbEnc x = some b → gbDec b = some x) (ac : AuthConf) (phones : List Bytes)
    (cs : List Char) (data : Bytes) (seq : UInt32) (opts : List OptionFunc) (g : UInt8) (clock : Clock)
    (seqs : Nat → UInt32) (hp : phones.length ≤ 255)
    (hph : ∀ p ∈ phones, Spec.Fits 21 p) (he : gbEnc (utf8 cs) = some data) (hlen : data.length < 140) :
    ∃ m frame, newSubmit gbEnc ac phones (utf8 cs) seq opts g clock seqs = some [m] ∧ m.encode = some frame ∧
      (Spec.Cmpp.Plain data → ∀ spare, ∃ r, recv (Submit.decode gbDec ac.version) frame spare = some r ∧
        r.hdr.sequenceId = seq ∧ r.destTermID = phones ∧ r.msgContent = utf8 cs) ∧
      (Spec.Torn data → ∀ dec s, Handlers.serve dec .smgp .login ac.version 2 s (frame.drop 12) = .crash) := by
  obtain ⟨msgs, slices, h1, h2, _, h3, h4⟩ :=
    smgp_newSubmit gbEnc ac phones (utf8 cs) data seq opts g clock seqs hp he
  rw [short_message_unchanged g data 140 hlen, Option.some.injEq] at h2
  subst h2
  match msgs, h3 with
  | [m], _ =>
    obtain ⟨hok, htl, hv, _, hseq, hdest, hc, _⟩ := h4 0 (by simp) (by simp)
    simp only [List.getElem_cons_zero, List.length_singleton, if_true] at hok htl hv hseq hdest hc
    have hp1 : partTlvs 1 0 = [] := rfl
    rw [hp1] at hok
    have hen := submit_encode m [] hok (Or.inl ⟨htl, rfl⟩)
    refine ⟨m, _, h1, hen, fun hplain spare => ?_, fun ht dec s => ?_⟩
    · obtain ⟨m', frame, r, e1, e2, e3, e4⟩ := smgp_newSubmit_delivered gbEnc gbDec hgb ac phones (utf8 cs) data seq opts g
        clock seqs spare hp hph he hlen hplain
      rw [h1] at e1
      obtain rfl := List.cons.inj (Option.some.inj e1) |>.1
      obtain rfl := Option.some.inj (hen.symm.trans e2)
      exact ⟨r, e3, e4⟩
    · obtain ⟨frame, e1, e4⟩ := submit_recv_none dec m [] [] hok (Or.inl ⟨htl, rfl⟩) (by simp)
        (by rw [hc]; exact strippedContent_torn ht)
      obtain rfl := Option.some.inj (hen.symm.trans e1)
      unfold recv at e4
      rw [List.append_nil, hv] at e4
      refine serve_torn dec .smgp ac.version 2 s _ (by decide) ?_
      have hb : ∀ f : Bytes, (⟨f.drop 12, f.length - 12⟩ : Buf) = Buf.exact (f.drop 12) := fun f => by
        rw [Buf.exact, List.length_drop]
      rw [hb] at e4
      show (Submit.decode dec ac.version s (Buf.exact _)).isSome = false
      rw [← Bool.not_eq_true, submit_needs dec ac.version s, ← submit_needs dec ac.version (unpackHead _).2.2, e4]
      simp

example : ∃ gbEnc gbDec : Bytes → Option Bytes, (∀ x b, gbEnc x = some b → gbDec b = some x) ∧
    gbEnc (utf8 "hi".toList) = some (ascii "hi") ∧ Spec.Cmpp.Plain (ascii "hi") ∧
    gbEnc (utf8 []) = some [] ∧ Spec.Torn [] ∧ Spec.Fits 21 (ascii "13800138000") :=
  ⟨some, some, fun _ _ h => h.symm ▸ rfl, by decide, by decide, rfl, by decide, by decide⟩

end Smgp

end Gosms
