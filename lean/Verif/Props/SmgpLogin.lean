import Verif.Lemmas.Smgp
import Verif.Props.CmppLogin

/-!
# C33: SMGP login; C36: SMGP responses; SMGP part of C31
-/

namespace Gosms.Smgp
open Gosms.Rd

/-! ## C33 -/

/-- A login packet built by `NewLogin` encodes to the 42-byte SMGP Login layout. The server decodes from
it the packet that was built, except that the client id is the whole 8-byte slot with its padding. -/
theorem smgp_login_frame (md5 : Bytes → Bytes) (h16 : ∀ x, (md5 x).length = 16) (ac : AuthConf)
    (seq : UInt32) (clock : Clock) (spare : Bytes) :
    ∃ frame, (newLogin md5 ac seq clock).encode = some frame ∧
      frame = Spec.header12 42 1 seq ++ Spec.Smgp.loginBody (newLogin md5 ac seq clock) ∧
      frame.length = 42 ∧ Spec.SelfDelimiting frame ∧
      recv Login.decode frame spare =
        some { newLogin md5 ac seq clock with clientID := pad 8 ac.clientId } := by
  have hlen : (Spec.Smgp.loginBody (newLogin md5 ac seq clock)).length = 30 := by
    simp [Spec.Smgp.loginBody]
  refine ⟨_, login_encode _ rfl, rfl, ?_, ?_, ?_⟩
  · rw [List.length_append, length_header12, hlen]
  · exact selfDelimiting_header12 (by rw [hlen]; rfl)
  · rw [recv_header12, hlen, login_reads _ _ (h16 _)]
    rfl

/-- Round trip of the login packet. Partial: the account id must have exactly 8 bytes (see
`smgp_login_short_id_fails`). -/
theorem smgp_login_roundtrip_partial (md5 : Bytes → Bytes) (h16 : ∀ x, (md5 x).length = 16) (ac : AuthConf)
    (seq : UInt32) (clock : Clock) (spare : Bytes) (hid : ac.clientId.length = 8) :
    ∃ frame, (newLogin md5 ac seq clock).encode = some frame ∧ Spec.SelfDelimiting frame ∧
      recv Login.decode frame spare = some (newLogin md5 ac seq clock) := by
  obtain ⟨frame, h1, _, _, h4, h5⟩ := smgp_login_frame md5 h16 ac seq clock spare
  refine ⟨frame, h1, h4, h5.trans ?_⟩
  rw [pad_eq_self hid]
  rfl

example : (ascii "12345678").length = 8 := by decide

/-- The digest an SMGP client must present: MD5(id, seven NULs, secret, ten-digit timestamp). -/
def expectedAuth (md5 : Bytes → Bytes) (a : AuthConf) (ts : UInt32) : Bytes :=
  md5 (a.clientId ++ List.replicate 7 0 ++ a.sharedSecret ++ Spec.decimal 10 ts.toNat)

/-- The login decision: each status is returned exactly in its case. 0 = accepted: the account exists,
the major versions agree and the digest is right. 69 = no account; 22 = other major version; 21 = wrong
digest. No other status is possible. -/
theorem smgp_login_decision (md5 : Bytes → Bytes) (l : Login) (ac : Option AuthConf) :
    ((l.check md5 ac).1 = 0 ↔ ∃ a, ac = some a ∧ Spec.major l.version = Spec.major a.version ∧
        l.authenticatorClient = expectedAuth md5 a l.timestamp) ∧
    ((l.check md5 ac).1 = 69 ↔ ac = none) ∧
    ((l.check md5 ac).1 = 22 ↔ ∃ a, ac = some a ∧ Spec.major l.version ≠ Spec.major a.version) ∧
    ((l.check md5 ac).1 = 21 ↔ ∃ a, ac = some a ∧ Spec.major l.version = Spec.major a.version ∧
        l.authenticatorClient ≠ expectedAuth md5 a l.timestamp) ∧
    (l.check md5 ac).1 ∈ [0, 21, 22, 69] := by
  cases ac with
  | none => simp [Login.check]
  | some a =>
    have hexp : expectedAuth md5 a l.timestamp =
        md5 (a.clientId ++ zeros 7 ++ a.sharedSecret ++ timeStamp2Str l.timestamp) := by
      rw [timeStamp2Str_decimal]; rfl
    simp only [Login.check]
    by_cases hv : majorMatch l.version a.version = true
    · have hv' := (majorMatch_iff _ _).1 hv
      rw [if_neg (by simpa using hv)]
      by_cases ha : l.authenticatorClient =
        md5 (a.clientId ++ zeros 7 ++ a.sharedSecret ++ timeStamp2Str l.timestamp)
      · rw [if_pos ha]
        rw [← hexp] at ha
        simp [hv', ha]
      · rw [if_neg ha]
        rw [← hexp] at ha
        simp [hv', ha]
    · have hv' : Spec.major l.version ≠ Spec.major a.version := fun e => hv ((majorMatch_iff _ _).2 e)
      rw [if_pos hv]
      simp [hv']

/-- An accepted login remembers the secret; nothing else of the packet changes, and a rejected login
changes nothing. -/
theorem smgp_login_secret (md5 : Bytes → Bytes) (l : Login) (ac : Option AuthConf) :
    ((l.check md5 ac).1 = 0 → ∃ a, ac = some a ∧ (l.check md5 ac).2 = { l with secret := a.sharedSecret }) ∧
    ((l.check md5 ac).1 ≠ 0 → (l.check md5 ac).2 = l) := by
  cases ac with
  | none => simp [Login.check]
  | some a =>
    simp only [Login.check]
    split
    · simp
    · split <;> simp

/-- Two versions of the same major number, a matching digest: accepted. -/
example (md5 : Bytes → Bytes) : ((Login.mk ⟨42, 1, 1⟩ (ascii "90123456") (md5 (ascii "90123456" ++ zeros 7
    ++ ascii "s" ++ Spec.decimal 10 7)) 2 7 0x30 []).check md5
    (some { clientId := ascii "90123456", sharedSecret := ascii "s", version := 0x31 })).1 = 0 :=
  ((smgp_login_decision _ _ _).1).2
    ⟨_, rfl, (by decide : Spec.major 0x30 = Spec.major 0x31), rfl⟩

/-- The digest a client computes for its account is the one the server expects for that account, at
every valid time. -/
theorem smgp_login_digest (md5 : Bytes → Bytes) (ac : AuthConf) (seq : UInt32) (clock : Clock)
    (hclock : clock.Valid) :
    (newLogin md5 ac seq clock).authenticatorClient =
      expectedAuth md5 ac (newLogin md5 ac seq clock).timestamp := by
  have hn := (now_consistent clock hclock).1
  show md5 _ = md5 _
  rw [← timeStamp2Str_decimal]
  show md5 (ac.clientId ++ zeros 7 ++ ac.sharedSecret ++ (now clock).1) =
    md5 (ac.clientId ++ zeros 7 ++ ac.sharedSecret ++ timeStamp2Str (now clock).2)
  rw [hn]

/-- A client using an account of the server is accepted: build, encode, decode, look the received id up
in the server's accounts (`find`), check. Partial: for ids of exactly 8 bytes. -/
theorem smgp_login_complete_partial (md5 : Bytes → Bytes) (h16 : ∀ x, (md5 x).length = 16) (ac : AuthConf)
    (seq : UInt32) (clock : Clock) (hclock : clock.Valid) (spare : Bytes)
    (find : Bytes → Option AuthConf) (hfind : find ac.clientId = some ac) (hid : ac.clientId.length = 8) :
    ∃ frame l, (newLogin md5 ac seq clock).encode = some frame ∧
      recv Login.decode frame spare = some l ∧ (l.check md5 (find l.clientID)).1 = 0 := by
  obtain ⟨frame, h1, _, h2⟩ := smgp_login_roundtrip_partial md5 h16 ac seq clock spare hid
  refine ⟨frame, _, h1, h2, ?_⟩
  refine ((smgp_login_decision _ _ _).1).2 ⟨ac, hfind, rfl, ?_⟩
  exact smgp_login_digest md5 ac seq clock hclock

example : (Clock.mk 26 1 2 3 4 5).Valid ∧ (ascii "90123456").length = 8 :=
  ⟨⟨by decide, by decide, by decide, by decide, by decide, by decide⟩, by decide⟩

/-- The full statement fails for every account whose id is shorter than 8 bytes: the padding is not
stripped from the received id, so no account (account ids contain no NUL) is found and the login is
rejected with "illegal SP id". -/
theorem smgp_login_short_id_fails (md5 : Bytes → Bytes) (h16 : ∀ x, (md5 x).length = 16) (ac : AuthConf)
    (seq : UInt32) (clock : Clock) (spare : Bytes) (find : Bytes → Option AuthConf)
    (hnul : ∀ id a, find id = some a → 0 ∉ id) (hid : ac.clientId.length < 8) :
    ∃ frame l, (newLogin md5 ac seq clock).encode = some frame ∧
      recv Login.decode frame spare = some l ∧ l.clientID ≠ ac.clientId ∧
      (l.check md5 (find l.clientID)).1 = 69 := by
  obtain ⟨frame, h1, _, _, _, h5⟩ := smgp_login_frame md5 h16 ac seq clock spare
  have hz : (0 : UInt8) ∈ pad 8 ac.clientId := by
    simp only [pad, zeros, List.mem_append, List.mem_replicate]
    right
    exact ⟨by omega, trivial⟩
  refine ⟨frame, _, h1, h5, ?_, ?_⟩
  · intro e
    have := congrArg List.length e
    simp only [length_pad] at this
    omega
  · refine ((smgp_login_decision _ _ _).2.1).2 ?_
    cases hf : find (pad 8 ac.clientId) with
    | none => rfl
    | some a => exact absurd hz (hnul _ _ hf)

/-- An account store with one account, whose id has six bytes. -/
example : ∃ find : Bytes → Option AuthConf, find (ascii "123456") = some { clientId := ascii "123456" } ∧
    (∀ id a, find id = some a → 0 ∉ id) ∧ (ascii "123456").length < 8 := by
  refine ⟨fun id => if id = ascii "123456" then some { clientId := ascii "123456" } else none, rfl, ?_, by decide⟩
  intro id a h
  by_cases he : id = ascii "123456"
  · subst he; decide
  · simp [he] at h

/-! ## C36 -/

/-- The login response: the server digest is MD5(status byte, client id, secret) when accepted and 16
NULs otherwise; the packet is 33 bytes and decodes to itself, for every status. -/
theorem smgp_login_response (md5 : Bytes → Bytes) (h16 : ∀ x, (md5 x).length = 16) (l : Login)
    (code : UInt32) (spare : Bytes) :
    let r := l.toResponse md5 code
    r.hdr.sequenceId = l.hdr.sequenceId ∧ r.hdr.commandId = Spec.responseOf 1 ∧ r.status = code ∧
    r.version = l.version ∧
    (code = 0 → r.authenticatorServer = md5 (0 :: (l.clientID ++ l.secret))) ∧
    (code ≠ 0 → r.authenticatorServer = List.replicate 16 0) ∧
    ∃ frame, r.encode = some frame ∧
      frame = Spec.header12 33 r.hdr.commandId r.hdr.sequenceId ++ Spec.Smgp.loginRspBody r ∧
      Spec.SelfDelimiting frame ∧ recv LoginRsp.decode frame spare = some r := by
  intro r
  have ha : r.authenticatorServer.length = 16 := by
    show (if code = 0 then md5 _ else zeros 16).length = 16
    split
    · exact h16 _
    · simp
  have hlen : (Spec.Smgp.loginRspBody r).length = 21 := by simp [Spec.Smgp.loginRspBody]
  refine ⟨rfl, (by decide : LOGIN_RESP = Spec.responseOf 1), rfl, rfl, ?_, ?_, ?_⟩
  · rintro rfl
    rfl
  · intro h0
    show (if code = 0 then _ else zeros 16) = _
    rw [if_neg h0]; rfl
  · refine ⟨_, loginRsp_encode r rfl, rfl, selfDelimiting_header12 (by rw [hlen]; rfl), ?_⟩
    rw [recv_header12, hlen, loginRsp_reads r _ ha]
    rfl

theorem rsp_recv (cmd : UInt32) (r : Rsp) (spare : Bytes) (hl : r.hdr.totalLength = 26)
    (h10 : r.msgId.length = 10) :
    ∃ frame, r.encode = some frame ∧ Spec.SelfDelimiting frame ∧
      recv (Rsp.decode cmd r.version) frame spare =
        some { r with hdr := ⟨26, cmd, r.hdr.sequenceId⟩ } := by
  have hlen : (Spec.Smgp.rspBody r).length = 14 := by simp [Spec.Smgp.rspBody]
  refine ⟨_, rsp_encode r hl, selfDelimiting_header12 (by rw [hlen]; rfl), ?_⟩
  rw [recv_header12, hlen, rsp_reads cmd r _ h10]

/-- Submit and deliver responses: the id (10 bytes) and every 32-bit status survive the wire; the
response comes back under the request's sequence number. -/
theorem smgp_responses_roundtrip (s : Submit) (d : Delivery) (code : UInt32) (id spare : Bytes)
    (hid : id.length = 10) :
    (∃ frame, (s.toResponse code id).encode = some frame ∧ Spec.SelfDelimiting frame ∧
      recv (Rsp.decode 0x80000002 s.version) frame spare =
        some { hdr := ⟨26, 0x80000002, s.hdr.sequenceId⟩, msgId := id, status := code,
               version := s.version }) ∧
    (∃ frame, (d.toResponse code id).encode = some frame ∧ Spec.SelfDelimiting frame ∧
      recv (Rsp.decode 0x80000003 d.version) frame spare =
        some { hdr := ⟨26, 0x80000003, d.hdr.sequenceId⟩, msgId := id, status := code,
               version := d.version }) :=
  ⟨rsp_recv 0x80000002 (s.toResponse code id) spare rfl hid,
   rsp_recv 0x80000003 (d.toResponse code id) spare rfl hid⟩

example : [1, 2, 3, 4, 5, 6, 7, 8, 9, 0].length = 10 := rfl

/-- Active test and exit: request and response frames are 12-byte headers, and decoding gives the packet
back under its sequence number. -/
theorem smgp_link_packets_roundtrip (seq code : UInt32) (spare : Bytes) :
    (∃ f, activeTestEncode (newActiveTest seq) = some f ∧ f = Spec.header12 12 4 seq ∧
      Spec.SelfDelimiting f ∧ recv activeTestDecode f spare = some (newActiveTest seq)) ∧
    (∃ f, exitEncode (newExit seq) = some f ∧ f = Spec.header12 12 6 seq ∧
      Spec.SelfDelimiting f ∧ recv exitDecode f spare = some (newExit seq)) ∧
    (∃ f, activeTestRspEncode (activeTestToResponse (newActiveTest seq) code) = some f ∧
      f = Spec.header12 12 0x80000004 seq ∧ Spec.SelfDelimiting f ∧
      recv activeTestRspDecode f spare = some ⟨12, 0x80000004, seq⟩) ∧
    (∃ f, exitRspEncode (exitToResponse (newExit seq) code) = some f ∧
      f = Spec.header12 12 0x80000006 seq ∧ Spec.SelfDelimiting f ∧
      recv exitRspDecode f spare = some ⟨12, 0x80000006, seq⟩) := by
  have hdr : ∀ cmd : UInt32, (Header.mk 12 cmd seq).encode = some (Spec.header12 12 cmd seq) := by
    intro cmd
    rw [header_encode, clamp_of_le (h := ⟨12, cmd, seq⟩) (Nat.le_refl 12)]
    simp [zeros]
  have hsd : ∀ cmd : UInt32, Spec.SelfDelimiting (Spec.header12 12 cmd seq) := by
    intro cmd
    have := selfDelimiting_header12 (l := 12) (c := cmd) (s := seq) (body := []) rfl
    rwa [List.append_nil] at this
  have hrecv : ∀ (cmd : UInt32) (dec : UInt32 → Buf → Option Header),
      recv dec (Spec.header12 12 cmd seq) spare = dec seq ⟨spare, 0⟩ := by
    intro cmd dec
    have := recv_header12 dec 12 cmd seq [] spare
    rwa [List.append_nil] at this
  exact ⟨⟨_, hdr _, rfl, hsd _, hrecv _ _⟩, ⟨_, hdr _, rfl, hsd _, hrecv _ _⟩,
    ⟨_, hdr _, rfl, hsd _, hrecv _ _⟩, ⟨_, hdr _, rfl, hsd _, hrecv _ _⟩⟩

/-! ## C31, SMGP part -/

/-- Every SMGP response carries the request's sequence number, the request's command with the top bit
set, and the given status. -/
theorem smgp_responses_echo (md5 : Bytes → Bytes) (l : Login) (s : Submit) (d : Delivery)
    (a e : Header) (code : UInt32) (id : Bytes)
    (hl : l.hdr.commandId = 1) (hs : s.hdr.commandId = 2) (hd : d.hdr.commandId = 3)
    (ha : a.commandId = 4) (he : e.commandId = 6) :
    ((l.toResponse md5 code).hdr.sequenceId = l.hdr.sequenceId ∧
      (l.toResponse md5 code).hdr.commandId = Spec.responseOf l.hdr.commandId ∧
      (l.toResponse md5 code).status = code) ∧
    ((s.toResponse code id).hdr.sequenceId = s.hdr.sequenceId ∧
      (s.toResponse code id).hdr.commandId = Spec.responseOf s.hdr.commandId ∧
      (s.toResponse code id).status = code) ∧
    ((d.toResponse code id).hdr.sequenceId = d.hdr.sequenceId ∧
      (d.toResponse code id).hdr.commandId = Spec.responseOf d.hdr.commandId ∧
      (d.toResponse code id).status = code) ∧
    ((activeTestToResponse a code).sequenceId = a.sequenceId ∧
      (activeTestToResponse a code).commandId = Spec.responseOf a.commandId) ∧
    ((exitToResponse e code).sequenceId = e.sequenceId ∧
      (exitToResponse e code).commandId = Spec.responseOf e.commandId) := by
  rw [hl, hs, hd, ha, he]
  exact ⟨⟨rfl, rfl, rfl⟩, ⟨rfl, rfl, rfl⟩, ⟨rfl, rfl, rfl⟩, ⟨rfl, rfl⟩, ⟨rfl, rfl⟩⟩

/-- The hypotheses hold of the packets the constructors build. -/
example (md5 : Bytes → Bytes) (ac : AuthConf) (seq : UInt32) (cl : Clock) :
    (newLogin md5 ac seq cl).hdr.commandId = 1 ∧ (newActiveTest seq).commandId = 4 ∧
    (newExit seq).commandId = 6 := ⟨rfl, rfl, rfl⟩

end Gosms.Smgp
