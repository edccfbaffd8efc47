import Verif.Props.AsciiParts
import Verif.Props.SmgpSubmit
import Verif.Props.Sgip

/-!
# C27, C28, C34, C38: what becomes of the content of a submit, in every case

The content of a submit is one of three: plain (it does not begin like a concatenation header, not even with a part of
one), headed (it begins with a whole header of six bytes), or torn (it is empty or breaks off in such a header).
-/

namespace Gosms

namespace Spec

/-- Content that begins with a whole concatenation header: 05 00 03 and three further bytes. -/
def Headed (c : Bytes) : Prop := [0x05, 0x00, 0x03] <+: c ∧ 6 ≤ c.length

/-- Content that is empty, or breaks off within the concatenation header it begins with. -/
def Torn (c : Bytes) : Prop := c <+: [0x05, 0x00, 0x03] ∨ ([0x05, 0x00, 0x03] <+: c ∧ c.length < 6)

instance (c : Bytes) : Decidable (Headed c) := inferInstanceAs (Decidable (_ ∧ _))
instance (c : Bytes) : Decidable (Torn c) := inferInstanceAs (Decidable (_ ∨ _))

end Spec

/-- Every content is exactly one of the three. -/
theorem content_cases (c : Bytes) :
    (Spec.Cmpp.Plain c ∨ Spec.Headed c ∨ Spec.Torn c) ∧ ¬ (Spec.Cmpp.Plain c ∧ Spec.Headed c) ∧
    ¬ (Spec.Cmpp.Plain c ∧ Spec.Torn c) ∧ ¬ (Spec.Headed c ∧ Spec.Torn c) := by
  unfold Spec.Cmpp.Plain Spec.Headed Spec.Torn
  refine ⟨?_, fun h => h.1.2 h.2.1, fun h => h.2.elim h.1.1 fun x => h.1.2 x.1, fun h => ?_⟩
  · by_cases h1 : c <+: [0x05, 0x00, 0x03]
    · exact Or.inr (Or.inr (Or.inl h1))
    · by_cases h2 : [0x05, 0x00, 0x03] <+: c
      · by_cases h3 : 6 ≤ c.length
        · exact Or.inr (Or.inl ⟨h2, h3⟩)
        · exact Or.inr (Or.inr (Or.inr ⟨h2, by omega⟩))
      · exact Or.inl ⟨h1, h2⟩
  · rcases h.2 with h1 | h1
    · have := h1.length_le
      have := h.1.2
      simp at *
      omega
    · have := h1.2
      have := h.1.2
      omega

theorem headed_eq {c : Bytes} (h : Spec.Headed c) : ∃ g t n body, c = Spec.udhHeader g t n ++ body ∧ c.drop 6 = body := by
  obtain ⟨⟨r, rfl⟩, hl⟩ := h
  match r, hl with
  | g :: t :: n :: body, _ => exact ⟨g, t, n, body, rfl, rfl⟩

theorem strippedContent_torn {c : Bytes} (h : Spec.Torn c) : Smgp.strippedContent c = none := by
  rcases h with h | ⟨⟨r, rfl⟩, hl⟩
  · match c, h with
    | [], _ => rfl
    | [a], h => obtain ⟨t, e⟩ := h; injection e with e1 e2; subst e1; rfl
    | [a, b], h =>
      obtain ⟨t, e⟩ := h; injection e with e1 e2; injection e2 with e2 e3; subst e1 e2; rfl
    | [a, b, d], h =>
      obtain ⟨t, e⟩ := h; injection e with e1 e2; injection e2 with e2 e3; injection e3 with e3 e4
      subst e1 e2 e3; rfl
    | _ :: _ :: _ :: _ :: _, h => have := h.length_le; simp at this
  · match r, hl with
    | [], _ => rfl
    | [_], _ => rfl
    | [_, _], _ => rfl

theorem decodedContent_torn {c : Bytes} (h : Spec.Torn c) : Cmpp.decodedContent c = none := by
  rcases h with h | ⟨⟨r, rfl⟩, hl⟩
  · match c, h with
    | [], _ => rfl
    | [a], h => obtain ⟨t, e⟩ := h; injection e with e1 e2; subst e1; rfl
    | [a, b], h =>
      obtain ⟨t, e⟩ := h; injection e with e1 e2; injection e2 with e2 e3; subst e1 e2; rfl
    | [a, b, d], h =>
      obtain ⟨t, e⟩ := h; injection e with e1 e2; injection e2 with e2 e3; injection e3 with e3 e4
      subst e1 e2 e3; rfl
    | _ :: _ :: _ :: _ :: _, h => have := h.length_le; simp at this
  · match r, hl with
    | [], _ => rfl
    | [_], _ => rfl
    | [_, _], _ => rfl

/-! ## Reading as UCS2 never gives back the bytes -/

/-- How many of the bytes are ASCII. -/
def asciiCount (b : Bytes) : Nat := b.countP (·.toNat < 128)

theorem asciiCount_utf8Enc (r : Nat) (hr : r < 0x110000) : asciiCount (utf8Enc r) = if r < 128 then 1 else 0 := by
  unfold asciiCount utf8Enc
  by_cases h : r < 0x80
  · simp [h, UInt8.toNat_ofNat', Nat.mod_eq_of_lt (show r < 256 by omega)]
  · rw [if_neg h, if_neg h]
    split
    · simp [List.countP_cons, UInt8.toNat_ofNat']; omega
    · split
      · simp [List.countP_cons, UInt8.toNat_ofNat']; omega
      · simp [List.countP_cons, UInt8.toNat_ofNat']; omega

theorem surrogatePair_bounds {x y : Nat} (hx : 0xD800 ≤ x ∧ x < 0xE000) (hy : 0xDC00 ≤ y ∧ y < 0xE000) :
    128 ≤ surrogatePair x y ∧ surrogatePair x y < 0x110000 := by
  unfold surrogatePair
  split <;> omega

/-- A character of ASCII takes two bytes of UCS2, both of which are ASCII. -/
theorem asciiCount_ucs2 (b : Bytes) : 2 * asciiCount (ucs2ToUtf8 b) ≤ asciiCount b := by
  have app : ∀ x y : Bytes, asciiCount (x ++ y) = asciiCount x + asciiCount y := fun x y => List.countP_append
  have big : ∀ r rs, 128 ≤ r → r < 0x110000 → asciiCount ((r :: rs).flatMap utf8Enc) = asciiCount (rs.flatMap utf8Enc) := by
    intro r rs h1 h2
    rw [List.flatMap_cons, app, asciiCount_utf8Enc r h2, if_neg (by omega)]; omega
  have drop : ∀ (x : Bytes) n, asciiCount (x.drop n) ≤ asciiCount x := fun x n => (List.drop_sublist n x).countP_le
  have cons2 : ∀ (a c : UInt8) (x : Bytes), asciiCount x ≤ asciiCount (a :: c :: x) := fun a c x =>
    (List.sublist_append_right [a, c] x).countP_le
  unfold ucs2ToUtf8
  induction b using decode16.induct with
  | case1 => rw [decode16]; simp [asciiCount]
  | case2 x => rw [decode16, big _ _ (by decide) (by decide)]; simp [asciiCount]
  | case3 a c rest h y hy ih =>
    rw [decode16, if_pos h, hy]
    have hy' : 0xDC00 ≤ y ∧ y < 0xE000 := by
      match rest, hy with
      | p :: q :: _, hy =>
        simp only [lowNext] at hy
        split at hy
        · injection hy with hy; omega
        · exact absurd hy (by simp)
    obtain ⟨h1, h2⟩ := surrogatePair_bounds h hy'
    simp only
    rw [big _ _ h1 h2]
    have := drop rest 2
    have := cons2 a c rest
    omega
  | case4 a c rest h hn ih =>
    rw [decode16, if_pos h, hn]
    simp only
    rw [big _ _ (by decide) (by decide)]
    have := cons2 a c rest
    omega
  | case5 a c rest h ih =>
    rw [decode16, if_neg h]
    have ha := a.toNat_lt
    have hc := c.toNat_lt
    by_cases hs : a.toNat * 256 + c.toNat < 128
    · rw [List.flatMap_cons, app, asciiCount_utf8Enc _ (by omega), if_pos hs]
      have e : asciiCount (a :: c :: rest) = asciiCount rest + 2 := by
        unfold asciiCount
        rw [List.countP_cons, List.countP_cons, if_pos (by simp; omega), if_pos (by simp; omega)]
      omega
    · rw [big _ _ (by omega) (by omega)]
      have := cons2 a c rest
      omega

/-- A content with a concatenation header is not the UCS2 reading of what follows the header. -/
theorem headed_changes {c : Bytes} (h : Spec.Headed c) : ucs2ToUtf8 (c.drop 6) ≠ c := by
  intro e
  have h1 := asciiCount_ucs2 (c.drop 6)
  rw [e] at h1
  have h2 : asciiCount (c.drop 6) ≤ asciiCount c := (List.drop_sublist 6 c).countP_le
  obtain ⟨⟨r, rfl⟩, _⟩ := h
  have h3 : 0 < asciiCount ([0x05, 0x00, 0x03] ++ r) := by
    unfold asciiCount
    exact List.countP_pos_iff.2 ⟨0x05, by simp, by decide⟩
  omega

/-! ## The three protocols -/

namespace Cmpp

/-- **C27, C28: what becomes of the content, in every case.** A plain content arrives as it was sent, of a headed one what
follows the header arrives, read as UCS2, and a torn one makes the decoder panic; nothing else is disturbed in the first
two cases. -/
theorem cmpp_submit_content_exactly (s : Submit) (spare : Bytes) (hok : Spec.Cmpp.SubmitOk s)
    (hwrap : Spec.major s.version = 3 ∨ s.destUsrTl.toNat ≤ 12) :
    ∃ frame, s.encode = some frame ∧
      (Spec.Cmpp.Plain s.msgContent → recv (Submit.decode s.version) frame spare =
        some { Spec.Cmpp.submitReceived s with msgContent := s.msgContent }) ∧
      (Spec.Headed s.msgContent → recv (Submit.decode s.version) frame spare =
        some { Spec.Cmpp.submitReceived s with msgContent := ucs2ToUtf8 (s.msgContent.drop 6) }) ∧
      (Spec.Torn s.msgContent → recv (Submit.decode s.version) frame spare = none) := by
  refine ⟨_, submit_encode s hok.total, fun h => (submit_recv s spare _ hok hwrap (decodedContent_plain h)).2, fun h => ?_,
    fun h => ?_⟩
  · obtain ⟨g, t, n, body, e, ed⟩ := headed_eq h
    rw [ed]
    exact (submit_recv s spare _ hok hwrap (by rw [e, decodedContent_udh])).2
  · rw [recv_header12]
    exact submit_fails s _ spare hok hwrap (decodedContent_torn h)

/-- **C27, C28: a content arrives unchanged exactly if it is plain.** So no part of a long message arrives with its
header, no text that begins like one arrives, and no empty one. -/
theorem cmpp_submit_unchanged_exactly (s : Submit) (spare : Bytes) (hok : Spec.Cmpp.SubmitOk s)
    (hwrap : Spec.major s.version = 3 ∨ s.destUsrTl.toNat ≤ 12) :
    ∃ frame, s.encode = some frame ∧
      ((∃ r, recv (Submit.decode s.version) frame spare = some r ∧ r.msgContent = s.msgContent) ↔
        Spec.Cmpp.Plain s.msgContent) := by
  obtain ⟨frame, h1, h2, h3, h4⟩ := cmpp_submit_content_exactly s spare hok hwrap
  refine ⟨frame, h1, fun ⟨r, hr, hc⟩ => ?_, fun h => ⟨_, h2 h, rfl⟩⟩
  rcases (content_cases s.msgContent).1 with h | h | h
  · exact h
  · rw [h3 h] at hr
    injection hr with hr
    subst hr
    exact absurd hc (headed_changes h)
  · rw [h4 h] at hr
    exact absurd hr (by simp)

/-- The three cases, met by contents of an otherwise fixed submit. -/
example : Spec.Cmpp.Plain exampleSubmit3.msgContent ∧ Spec.Headed exampleSlice3.msgContent ∧ Spec.Torn [] ∧
    Spec.Torn [0x05] ∧ Spec.Torn [0x05, 0x00, 0x03, 0x01, 0x02] ∧ Spec.Cmpp.Plain [0x05, 0x01] := by decide

example : Spec.Cmpp.SubmitOk exampleSubmit3 ∧ Spec.Cmpp.SubmitOk exampleSlice3 :=
  ⟨⟨by decide, by decide, by simp only [length_submitBody]; decide⟩,
   ⟨by decide, by decide, by simp only [length_submitBody]; decide⟩⟩

end Cmpp

namespace Smgp

/-- **C34: what becomes of the content, in every case.** Of a plain content the text arrives, of a headed one the text of
what follows the header (no text if the decoder of the character set refuses the bytes), and a torn one makes the decoder
panic. -/
theorem smgp_submit_content_exactly (gbDec : Bytes → Option Bytes) (s : Submit) (tlvs : List (UInt16 × Bytes))
    (spare : Bytes) (hok : Spec.Smgp.SubmitOk s tlvs)
    (htl : (s.tlvList = none ∧ tlvs = []) ∨ s.tlvList = some (tlvBuild tlvs)) (hlt : ∀ tv ∈ tlvs, tv.2.length < 65536) :
    ∃ frame, s.encode = some frame ∧
      (Spec.Cmpp.Plain s.msgContent → recv (Submit.decode gbDec s.version) frame spare =
        some { Spec.Smgp.submitReceived s ((gbDec s.msgContent).getD []) with tlvList := some (tlvBuild tlvs) }) ∧
      (Spec.Headed s.msgContent → recv (Submit.decode gbDec s.version) frame spare =
        some { Spec.Smgp.submitReceived s ((gbDec (s.msgContent.drop 6)).getD []) with
          tlvList := some (tlvBuild tlvs) }) ∧
      (Spec.Torn s.msgContent → recv (Submit.decode gbDec s.version) frame spare = none) := by
  have he := submit_encode s tlvs hok (htl.imp id fun h => ⟨h, hlt⟩)
  refine ⟨_, he, fun h => ?_, fun h => ?_, fun h => ?_⟩
  · rw [recv_header12, submit_reads gbDec s tlvs _ spare _ hok hlt (strippedContent_plain h), Cmpp.total_u32 hok.total]
    rfl
  · obtain ⟨g, t, n, body, e, ed⟩ := headed_eq h
    rw [ed, recv_header12, submit_reads gbDec s tlvs _ spare body hok hlt (by rw [e, strippedContent_udh]),
      Cmpp.total_u32 hok.total]
    rfl
  · obtain ⟨f, h1, h2⟩ := submit_recv_none gbDec s tlvs spare hok htl hlt (strippedContent_torn h)
    obtain rfl := Option.some.inj (he.symm.trans h1)
    exact h2

example : Spec.Smgp.SubmitOk exampleSubmit [] ∧ Spec.Cmpp.Plain exampleSubmit.msgContent ∧
    Spec.Headed exampleSlice.msgContent := ⟨exampleSubmit_ok.1, by decide, by decide⟩

end Smgp

namespace Sgip

/-- **C38: what becomes of the content, in every case**, as for CMPP. -/
theorem sgip_submit_content_exactly (s : Submit) (spare : Bytes) (hok : Spec.Sgip.SubmitOk s)
    (hfit : Spec.Sgip.SubmitFits s) :
    ∃ frame, s.encode = some frame ∧
      (Spec.Cmpp.Plain s.messageContent → recv Submit.decode frame spare =
        some { s with hdr := ⟨s.hdr.packetLength, 3, s.hdr.seq0, s.hdr.seq1, s.hdr.seq2⟩, reserve := [] }) ∧
      (Spec.Headed s.messageContent → recv Submit.decode frame spare =
        some { s with hdr := ⟨s.hdr.packetLength, 3, s.hdr.seq0, s.hdr.seq1, s.hdr.seq2⟩, reserve := [],
                      messageContent := ucs2ToUtf8 (s.messageContent.drop 6) }) ∧
      (Spec.Torn s.messageContent → recv Submit.decode frame spare = none) := by
  have he := submit_encode s hok hfit
  refine ⟨_, he, fun h => ?_, fun h => ?_, fun h => ?_⟩
  · rw [recv_header20, submit_reads s hok hfit _ _ _ spare _ (Cmpp.decodedContent_plain h)]
    rfl
  · obtain ⟨g, t, n, body, e, ed⟩ := headed_eq h
    rw [ed, recv_header20, submit_reads s hok hfit _ _ _ spare _
      (by rw [e, decodedContent, Cmpp.decodedContent_udh])]
    rfl
  · obtain ⟨f, h1, h2⟩ := submit_recv_none s spare hok hfit (decodedContent_torn h)
    obtain rfl := Option.some.inj (he.symm.trans h1)
    exact h2

/-- **C38: a content arrives unchanged exactly if it is plain.** -/
theorem sgip_submit_unchanged_exactly (s : Submit) (spare : Bytes) (hok : Spec.Sgip.SubmitOk s)
    (hfit : Spec.Sgip.SubmitFits s) :
    ∃ frame, s.encode = some frame ∧
      ((∃ r, recv Submit.decode frame spare = some r ∧ r.messageContent = s.messageContent) ↔
        Spec.Cmpp.Plain s.messageContent) := by
  obtain ⟨frame, h1, h2, h3, h4⟩ := sgip_submit_content_exactly s spare hok hfit
  refine ⟨frame, h1, fun ⟨r, hr, hc⟩ => ?_, fun h => ⟨_, h2 h, rfl⟩⟩
  rcases (content_cases s.messageContent).1 with h | h | h
  · exact h
  · rw [h3 h] at hr
    injection hr with hr
    subst hr
    exact absurd hc (headed_changes h)
  · rw [h4 h] at hr
    exact absurd hr (by simp)

example : Spec.Sgip.SubmitOk exampleSubmit ∧ Spec.Sgip.SubmitFits exampleSubmit ∧
    Spec.Cmpp.Plain exampleSubmit.messageContent ∧ Spec.Headed exampleSlice.messageContent :=
  ⟨exampleSubmit_ok.1, exampleSubmit_ok.2, by decide, by decide⟩

end Sgip

end Gosms
