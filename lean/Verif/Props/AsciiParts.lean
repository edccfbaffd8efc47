import Verif.Props.CmppSubmit
import Verif.Props.Sgip
import Verif.Props.Slices

/-!
C27, C28, C38: long ASCII texts.

The decoders of CMPP and SGIP read every content that begins with a concatenation header as UCS2, and
`NewSubmit` cuts ASCII texts of 160 bytes or more into such parts without transcoding them. The witnesses
`cmpp3_submit_ascii_slice_fails` and `sgip_submit_ascii_slice_fails` are generalised here: *no* part of
an ASCII text arrives as it was sent, and so no long ASCII text does.
-/

namespace Gosms

/-- The bytes of a text of ASCII characters other than NUL. -/
def Spec.AsciiNoNul (b : Bytes) : Prop := ∀ x ∈ b, 0 < x.toNat ∧ x.toNat < 128

/-- The first byte of the UTF-8 form of a character beyond ASCII. -/
theorem utf8Enc_head {r : Nat} (h : 0x80 ≤ r) (hr : r < 0x110000) :
    ∃ b rest, utf8Enc r = b :: rest ∧ 128 ≤ b.toNat := by
  unfold utf8Enc
  rw [if_neg (by omega)]
  split
  · exact ⟨_, _, rfl, by rw [u8_ofNat_toNat (by omega)]; omega⟩
  · split
    · exact ⟨_, _, rfl, by rw [u8_ofNat_toNat (by omega)]; omega⟩
    · exact ⟨_, _, rfl, by rw [u8_ofNat_toNat (by omega)]; omega⟩

/-- ASCII bytes read as UCS2 begin with a byte that is not ASCII. -/
theorem ucs2ToUtf8_ascii (b : Bytes) (hne : b ≠ []) (h : Spec.AsciiNoNul b) :
    ∃ x rest, ucs2ToUtf8 b = x :: rest ∧ 128 ≤ x.toNat := by
  have key : ∃ r rs, decode16 b = r :: rs ∧ 0x80 ≤ r ∧ r < 0x110000 := by
    match b, hne with
    | [_], _ => exact ⟨0xFFFD, [], by rw [decode16], by decide, by decide⟩
    | a :: c :: rest, _ =>
      have ha := h a (by simp)
      have hc := h c (by simp)
      refine ⟨a.toNat * 256 + c.toNat, decode16 rest, ?_, by omega, by omega⟩
      rw [decode16, if_neg (by omega)]
  obtain ⟨r, rs, e, h1, h2⟩ := key
  obtain ⟨x, rest, e2, h3⟩ := utf8Enc_head h1 h2
  exact ⟨x, rest ++ rs.flatMap utf8Enc, by rw [ucs2ToUtf8, e, List.flatMap_cons, e2]; rfl, h3⟩

theorem runes_ascii (b : Bytes) (h : Spec.AsciiNoNul b) : (runes b).length = b.length := by
  induction b with
  | nil => rw [runes]; rfl
  | cons a t ih =>
    have ha := (h a (by simp)).2
    rw [runes]
    simp only [decodeMulti, if_pos ha, List.drop_zero, List.length_cons]
    rw [ih fun x hx => h x (List.mem_cons_of_mem _ hx)]

theorem msgFmt_ascii (b : Bytes) (h : Spec.AsciiNoNul b) : msgFmt b = 0 := by
  unfold msgFmt
  split
  · rfl
  · rw [if_pos (runes_ascii b h).symm]

/-- How `MsgSlices` cuts an ASCII text of 160 bytes or more: the first slice is a concatenation header
and the first 154 bytes of the text. -/
theorem ascii_first_slice (g : UInt8) (text : Bytes) (h : Spec.AsciiNoNul text) (hl : 160 ≤ text.length)
    (slices : List Bytes) (hs : msgSlices g (msgFmt text) text = some slices) :
    ∃ t rest, slices = (Spec.udhHeader g t 1 ++ text.take 154) :: rest := by
  rw [msgFmt_ascii text h, msgSlices, if_neg (by decide), toTPUDHISlices_long g text 160 (by decide) hl] at hs
  have hb := sliceCount_bounds text.length 154 (by decide)
  have hpos : 2 ≤ sliceCount text.length 154 := by omega
  obtain ⟨k, hk⟩ : ∃ k, sliceCount text.length 154 = k + 2 := ⟨_, (Nat.sub_add_cancel hpos).symm⟩
  have hs' := (Option.some.inj hs).symm
  simp only [Nat.reduceSub] at hs'
  have hr : List.range (k + 2) = 0 :: (List.range (k + 1)).map Nat.succ := List.range_succ_eq_map
  have e0 : sliceBody text 154 0 = text.take 154 := by
    unfold sliceBody
    rw [if_pos (by omega)]; simp
  rw [hk, hr, List.map_cons, e0] at hs'
  exact ⟨_, _, hs'⟩

theorem asciiNoNul_take {b : Bytes} (h : Spec.AsciiNoNul b) (n : Nat) : Spec.AsciiNoNul (b.take n) :=
  fun x hx => h x (List.mem_of_mem_take hx)

namespace Cmpp

/-- **C27, C28: every part of an ASCII text arrives as something else.** Whatever the other fields and
the number of the part, the content of the decoded packet begins with a byte that no ASCII text has. -/
theorem cmpp_ascii_part_fails (s : Submit) (spare : Bytes) (hok : Spec.Cmpp.SubmitOk s)
    (hwrap : Spec.major s.version = 3 ∨ s.destUsrTl.toNat ≤ 12) (g t n : UInt8) (text : Bytes)
    (hne : text ≠ []) (htext : Spec.AsciiNoNul text) (hc : s.msgContent = Spec.udhHeader g t n ++ text) :
    ∃ frame r x rest, s.encode = some frame ∧ recv (Submit.decode s.version) frame spare = some r ∧
      r.msgContent = x :: rest ∧ 128 ≤ x.toNat ∧ ¬ Spec.AsciiNoNul r.msgContent ∧ r.msgContent ≠ text := by
  obtain ⟨h1, h2⟩ := submit_recv s spare (ucs2ToUtf8 text) hok hwrap (by rw [hc, decodedContent_udh])
  obtain ⟨x, rest, e, hx⟩ := ucs2ToUtf8_ascii text hne htext
  have hn : ¬ Spec.AsciiNoNul (ucs2ToUtf8 text) := fun h => by
    have := (h x (by rw [e]; simp)).2
    omega
  exact ⟨_, _, x, rest, h1, h2, e, hx, hn, fun he => hn (by
    have he' : ucs2ToUtf8 text = text := he
    rw [he']; exact htext)⟩

example : Spec.Cmpp.SubmitOk exampleSlice3 ∧ Spec.AsciiNoNul (ascii "ab") ∧
    exampleSlice3.msgContent = Spec.udhHeader 1 2 1 ++ ascii "ab" :=
  ⟨⟨by decide, by decide, by simp only [length_submitBody]; decide⟩,
   by intro x hx; have : x = 0x61 ∨ x = 0x62 := by simpa [ascii] using hx
      rcases this with rfl | rfl <;> decide, rfl⟩

/-- **C27, C28: no ASCII text of 160 bytes or more arrives.** `NewSubmit` makes at least one packet for
it, every field and recipient in order, but what the other side decodes from the first packet is not the
beginning of the text. -/
theorem cmpp_long_ascii_fails (ac : AuthConf) (phones : List Bytes) (text : Bytes) (seq : UInt32)
    (opts : List OptionFunc) (g : UInt8) (expiry : Clock) (seqs : Nat → UInt32) (spare : Bytes)
    (hp : phones.length ≤ if Spec.major ac.version = 3 then 255 else 12)
    (htext : Spec.AsciiNoNul text) (hlong : 160 ≤ text.length) :
    ∃ m ms, newSubmit ac phones text seq opts g expiry seqs = some (m :: ms) ∧
      ∃ frame r, m.encode = some frame ∧ recv (Submit.decode m.version) frame spare = some r ∧
        r.msgFmt = 0 ∧ r.msgContent ≠ [] ∧ ¬ r.msgContent <+: text := by
  have hp255 : phones.length ≤ 255 := by split at hp <;> omega
  obtain ⟨msgs, slices, hm, hs, hlen, hall⟩ := cmpp_newSubmit ac phones text seq opts g expiry seqs hp255
  obtain ⟨t, rest, hsl⟩ := ascii_first_slice g text htext hlong slices hs
  subst hsl
  match msgs, hlen, hall, hm with
  | m :: ms, hlen, hall, hm =>
    obtain ⟨hok, hv, _, _, _, htl, hc, hf, _⟩ := hall 0 (by simp) (by simp)
    simp only [List.getElem_cons_zero] at hok hv htl hc hf
    have hwrap : Spec.major m.version = 3 ∨ m.destUsrTl.toNat ≤ 12 := by
      rw [hv, htl]
      split at hp
      · exact Or.inl ‹_›
      · exact Or.inr hp
    obtain ⟨h1, h2⟩ := submit_recv m spare (ucs2ToUtf8 (text.take 154)) hok hwrap
      (by rw [hc, decodedContent_udh])
    have hne : text.take 154 ≠ [] := by
      intro e
      have := congrArg List.length e
      rw [List.length_take, List.length_nil] at this
      omega
    obtain ⟨x, xs, e, hx⟩ := ucs2ToUtf8_ascii _ hne (asciiNoNul_take htext 154)
    refine ⟨m, ms, hm, _, _, h1, h2, ?_, ?_, ?_⟩
    · show m.msgFmt = 0
      rw [hf, msgFmt_ascii text htext]
    · show ucs2ToUtf8 _ ≠ []
      rw [e]; simp
    · show ¬ ucs2ToUtf8 _ <+: text
      rw [e]
      intro hpre
      have := (htext x (hpre.subset (by simp))).2
      omega

/-- Satisfiable: 200 letters `a`, one recipient. -/
example : Spec.AsciiNoNul (List.replicate 200 (0x61 : UInt8)) ∧
    160 ≤ (List.replicate 200 (0x61 : UInt8)).length ∧ [ascii "13800138000"].length ≤ 12 :=
  ⟨fun x hx => by rw [(List.mem_replicate.1 hx).2]; decide, by rw [List.length_replicate]; decide, by decide⟩

end Cmpp

namespace Sgip

/-- **C38: every part of an ASCII text arrives as something else.** -/
theorem sgip_ascii_part_fails (s : Submit) (spare : Bytes) (hok : Spec.Sgip.SubmitOk s)
    (hfit : Spec.Sgip.SubmitFits s) (g t n : UInt8) (text : Bytes)
    (hne : text ≠ []) (htext : Spec.AsciiNoNul text) (hc : s.messageContent = Spec.udhHeader g t n ++ text) :
    ∃ frame r x rest, s.encode = some frame ∧ recv Submit.decode frame spare = some r ∧
      r.messageContent = x :: rest ∧ 128 ≤ x.toNat ∧ ¬ Spec.AsciiNoNul r.messageContent ∧
      r.messageContent ≠ text := by
  have hd : decodedContent s.messageContent = some (ucs2ToUtf8 text) := by
    rw [hc, decodedContent, Cmpp.decodedContent_udh]
  obtain ⟨x, rest, e, hx⟩ := ucs2ToUtf8_ascii text hne htext
  have hn : ¬ Spec.AsciiNoNul (ucs2ToUtf8 text) := fun h => by
    have := (h x (by rw [e]; simp)).2
    omega
  refine ⟨_, { s with hdr := ⟨s.hdr.packetLength, 3, s.hdr.seq0, s.hdr.seq1, s.hdr.seq2⟩,
                      messageContent := ucs2ToUtf8 text, reserve := [] }, x, rest,
    submit_encode s hok hfit, ?_, e, hx, hn, fun he => hn (by
      have he' : ucs2ToUtf8 text = text := he
      rw [he']; exact htext)⟩
  rw [recv_header20, submit_reads s hok hfit _ _ _ spare _ hd]
  rfl

example : Spec.Sgip.SubmitFits exampleSlice ∧ exampleSlice.messageContent = Spec.udhHeader 1 2 1 ++ ascii "ab" :=
  ⟨exampleSlice_ok.2, by decide⟩

/-- The fields of the packets `NewSubmit` makes are those of the options: they all fit their slots when
these and the recipients do. -/
theorem newSubmit_fits (ac : AuthConf) (phones : List Bytes) (text : Bytes) (opts : List OptionFunc)
    (g : UInt8) (expiry : Clock) (seqs : Nat → Seq3) (msgs : List Submit)
    (h : newSubmit ac phones text opts g expiry seqs = some msgs)
    (hf : Spec.Sgip.SubmitFits { setOptions ac { hdr := ⟨143, SUBMIT, (seqs 0).1, (seqs 0).2.1, (seqs 0).2.2⟩ }
      (loadMtOptions opts) expiry with userNumber := phones }) :
    ∀ m ∈ msgs, Spec.Sgip.SubmitFits m := by
  unfold newSubmit at h
  simp only at h
  rw [Option.map_eq_some_iff] at h
  obtain ⟨sl, _, h⟩ := h
  intro m hm
  split at h
  · subst h
    rw [List.mem_singleton] at hm
    subst hm
    exact ⟨hf.1, hf.2, hf.3, hf.4, hf.5, hf.6, hf.7, hf.8, hf.9, hf.10⟩
  · subst h
    obtain ⟨i, hi, rfl⟩ := List.mem_mapIdx.1 hm
    exact ⟨hf.1, hf.2, hf.3, hf.4, hf.5, hf.6, hf.7, hf.8, hf.9, hf.10⟩

/-- **C38: no ASCII text of 160 bytes or more arrives**, whatever fields were set. -/
theorem sgip_long_ascii_fails (ac : AuthConf) (phones : List Bytes) (text : Bytes)
    (opts : List OptionFunc) (g : UInt8) (expiry : Clock) (seqs : Nat → Seq3) (spare : Bytes)
    (hp : phones.length ≤ 255) (htext : Spec.AsciiNoNul text) (hlong : 160 ≤ text.length) :
    ∃ m ms, newSubmit ac phones text opts g expiry seqs = some (m :: ms) ∧
      (Spec.Sgip.SubmitFits m →
        ∃ frame r, m.encode = some frame ∧ recv Submit.decode frame spare = some r ∧
          r.messageCoding = 0 ∧ r.messageContent ≠ [] ∧ ¬ r.messageContent <+: text) := by
  obtain ⟨msgs, slices, hm, hs, _, hlen, hall⟩ := sgip_newSubmit ac phones text opts g expiry seqs hp
  obtain ⟨t, rest, hsl⟩ := ascii_first_slice g text htext hlong slices hs
  subst hsl
  match msgs, hlen, hall, hm with
  | m :: ms, hlen, hall, hm =>
    obtain ⟨hok, _, _, _, hc, hf, _⟩ := hall 0 (by simp) (by simp)
    simp only [List.getElem_cons_zero] at hok hc hf
    refine ⟨m, ms, hm, fun hfit => ?_⟩
    have hne : text.take 154 ≠ [] := by
      intro e
      have := congrArg List.length e
      rw [List.length_take, List.length_nil] at this
      omega
    have hd : decodedContent m.messageContent = some (ucs2ToUtf8 (text.take 154)) := by
      rw [hc, decodedContent, Cmpp.decodedContent_udh]
    obtain ⟨x, xs, e, hx⟩ := ucs2ToUtf8_ascii _ hne (asciiNoNul_take htext 154)
    refine ⟨_, { m with hdr := ⟨m.hdr.packetLength, 3, m.hdr.seq0, m.hdr.seq1, m.hdr.seq2⟩,
                        messageContent := ucs2ToUtf8 (text.take 154), reserve := [] },
      submit_encode m hok hfit, ?_, ?_, ?_, ?_⟩
    · rw [recv_header20, submit_reads m hok hfit _ _ _ spare _ hd]
      rfl
    · show m.messageCoding = 0
      rw [hf, msgFmt_ascii text htext]
    · show ucs2ToUtf8 _ ≠ []
      rw [e]; simp
    · show ¬ ucs2ToUtf8 _ <+: text
      rw [e]
      intro hpre
      have := (htext x (hpre.subset (by simp))).2
      omega

/-- Satisfiable: the packets of a plain configuration fit, whatever the text. -/
example (text : Bytes) (g : UInt8) (msgs : List Submit)
    (h : newSubmit { clientId := ascii "10690" } [ascii "8613800138000"] text [] g
      { year := 22, month := 1, day := 1, hour := 12, minute := 0, second := 0 } (fun i => (1, 2, UInt32.ofNat i)) = some msgs) :
    ∀ m ∈ msgs, Spec.Sgip.SubmitFits m :=
  newSubmit_fits _ _ _ _ _ _ _ _ h
    ⟨by decide, by decide, by decide, by decide, by decide, by decide, by decide, by decide, by decide,
     by decide⟩

end Sgip
end Gosms
