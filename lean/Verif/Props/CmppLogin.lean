import Verif.Lemmas.Cmpp
import Verif.Props.Utils

/-!
# C23-C26: CMPP login
-/

namespace Gosms

theorem fixDec_eq_decimal (n v : Nat) : fixDec n v = Spec.decimal n v := by
  induction n generalizing v with
  | zero => rfl
  | succ n ih =>
    have e : Spec.decimal (n + 1) v = Spec.decimal n (v / 10) ++ [digit (v % 10)] := by
      unfold Spec.decimal
      rw [List.range_succ_eq_map]
      simp only [List.reverse_cons, List.map_append, List.map_reverse, List.map_map, List.map_cons,
        List.map_nil, Nat.pow_zero, Nat.div_one]
      congr 2
      apply List.map_congr_left
      intro k _
      simp only [Function.comp, Nat.succ_eq_add_one, Nat.pow_succ']
      rw [Nat.div_div_eq_div_mul]
    rw [e, ← ih]
    rfl

/-- The timestamp string the server recomputes is the ten-digit decimal of the number received. -/
theorem timeStamp2Str_decimal (t : UInt32) : timeStamp2Str t = Spec.decimal 10 t.toNat := by
  rw [timeStamp2Str, ← fixDec_eq_decimal]
  exact (padLeft_dec 10 t.toNat (by omega) (by have := t.toNat_lt; omega)).2

namespace Cmpp
open Gosms.Rd

/-! ## C23 -/

/-- A connect packet built by `NewConnect` encodes to the 39-byte CMPP_CONNECT layout and the server
decodes from it exactly the packet that was built, for every account whose id fits the 6-byte slot,
at every time. (`md5` is any function with 16-byte results.) -/
theorem cmpp_connect_roundtrip (md5 : Bytes → Bytes) (h16 : ∀ x, (md5 x).length = 16) (ac : AuthConf)
    (seq : UInt32) (clock : Clock) (spare : Bytes) (hid : Spec.Fits 6 ac.clientId) :
    ∃ frame, (newConnect md5 ac seq clock).encode = some frame ∧
      frame = Spec.header12 39 1 seq ++ Spec.Cmpp.connectBody (newConnect md5 ac seq clock) ∧
      frame.length = 39 ∧ Spec.SelfDelimiting frame ∧
      recv Connect.decode frame spare = some (newConnect md5 ac seq clock) := by
  have hlen : (Spec.Cmpp.connectBody (newConnect md5 ac seq clock)).length = 27 := by
    simp [Spec.Cmpp.connectBody]
  refine ⟨_, connect_encode _ rfl, rfl, ?_, ?_, ?_⟩
  · rw [List.length_append, length_header12, hlen]
  · exact selfDelimiting_header12 (by rw [hlen]; rfl)
  · rw [recv_header12, hlen, connect_reads _ _ (h16 _)]
    simp only [newConnect, Spec.slot_fits hid]

example : Spec.Fits 6 (ascii "123456") := by decide

/-- For any account the source address that arrives is the id cut to its slot, and nothing else is
affected. -/
theorem cmpp_connect_overlong (md5 : Bytes → Bytes) (h16 : ∀ x, (md5 x).length = 16) (ac : AuthConf)
    (seq : UInt32) (clock : Clock) (spare : Bytes) :
    ∃ frame, (newConnect md5 ac seq clock).encode = some frame ∧
      recv Connect.decode frame spare =
        some { newConnect md5 ac seq clock with sourceAddr := Spec.slot 6 ac.clientId } := by
  have hlen : (Spec.Cmpp.connectBody (newConnect md5 ac seq clock)).length = 27 := by
    simp [Spec.Cmpp.connectBody]
  refine ⟨_, connect_encode _ rfl, ?_⟩
  rw [recv_header12, hlen, connect_reads _ _ (h16 _)]
  rfl

/-! ## C24 -/

/-- The digest a CMPP client must present: MD5(id, nine NULs, secret, ten-digit timestamp). -/
def expectedAuth (md5 : Bytes → Bytes) (a : AuthConf) (ts : UInt32) : Bytes :=
  md5 (a.clientId ++ List.replicate 9 0 ++ a.sharedSecret ++ Spec.decimal 10 ts.toNat)

/-- The login decision: each status is returned exactly in its case. 0 = accepted: the account
exists, the major versions agree and the digest is right. 2 = no account; 4 = other major version;
3 = wrong digest. No other status is possible. -/
theorem cmpp_login_decision (md5 : Bytes → Bytes) (c : Connect) (ac : Option AuthConf) :
    ((c.check md5 ac).1 = 0 ↔ ∃ a, ac = some a ∧ Spec.major c.version = Spec.major a.version ∧
        c.authenticatorSource = expectedAuth md5 a c.timestamp) ∧
    ((c.check md5 ac).1 = 2 ↔ ac = none) ∧
    ((c.check md5 ac).1 = 4 ↔ ∃ a, ac = some a ∧ Spec.major c.version ≠ Spec.major a.version) ∧
    ((c.check md5 ac).1 = 3 ↔ ∃ a, ac = some a ∧ Spec.major c.version = Spec.major a.version ∧
        c.authenticatorSource ≠ expectedAuth md5 a c.timestamp) ∧
    (c.check md5 ac).1 ∈ [0, 2, 3, 4] := by
  cases ac with
  | none => simp [Connect.check]
  | some a =>
    have hexp : expectedAuth md5 a c.timestamp =
        md5 (a.clientId ++ zeros 9 ++ a.sharedSecret ++ timeStamp2Str c.timestamp) := by
      rw [timeStamp2Str_decimal]; rfl
    simp only [Connect.check]
    by_cases hv : majorMatch c.version a.version = true
    · have hv' := (majorMatch_iff _ _).1 hv
      rw [if_neg (by simpa using hv)]
      by_cases ha : c.authenticatorSource =
        md5 (a.clientId ++ zeros 9 ++ a.sharedSecret ++ timeStamp2Str c.timestamp)
      · rw [if_pos ha]
        rw [← hexp] at ha
        simp [hv', ha]
      · rw [if_neg ha]
        rw [← hexp] at ha
        simp [hv', ha]
    · have hv' : Spec.major c.version ≠ Spec.major a.version := fun e => hv ((majorMatch_iff _ _).2 e)
      rw [if_pos hv]
      simp [hv']

/-- An accepted login remembers the secret (it is needed for the response digest); nothing else of the
packet changes, and a rejected login changes nothing. -/
theorem cmpp_login_secret (md5 : Bytes → Bytes) (c : Connect) (ac : Option AuthConf) :
    ((c.check md5 ac).1 = 0 → ∃ a, ac = some a ∧ (c.check md5 ac).2 = { c with secret := a.sharedSecret }) ∧
    ((c.check md5 ac).1 ≠ 0 → (c.check md5 ac).2 = c) := by
  cases ac with
  | none => simp [Connect.check]
  | some a =>
    simp only [Connect.check]
    split
    · simp
    · split <;> simp

/-- Two versions of the same major number, a matching digest: accepted. -/
example (md5 : Bytes → Bytes) : ((Connect.mk ⟨39, 1, 1⟩ (ascii "901234") (md5 (ascii "901234" ++ zeros 9
    ++ ascii "s" ++ Spec.decimal 10 7)) 0x30 7 []).check md5
    (some { clientId := ascii "901234", sharedSecret := ascii "s", version := 0x31 })).1 = 0 :=
  ((cmpp_login_decision _ _ _).1).2
    ⟨_, rfl, (by decide : Spec.major 0x30 = Spec.major 0x31), rfl⟩

/-- Another major version, or no account: rejected. -/
example (md5 : Bytes → Bytes) : ((Connect.mk ⟨39, 1, 1⟩ [] [] 0x20 7 []).check md5
    (some { version := 0x30 })).1 = 4 ∧ ((Connect.mk ⟨39, 1, 1⟩ [] [] 0x20 7 []).check md5 none).1 = 2 :=
  ⟨((cmpp_login_decision _ _ _).2.2.1).2 ⟨_, rfl, (by decide : Spec.major 0x20 ≠ Spec.major 0x30)⟩,
   ((cmpp_login_decision _ _ _).2.1).2 rfl⟩

/-! ## C25 -/

/-- A client using the account the server has is always accepted: build, encode, decode, check yields
OK, for every account whose id fits and at every valid time. -/
theorem cmpp_login_complete (md5 : Bytes → Bytes) (h16 : ∀ x, (md5 x).length = 16) (ac : AuthConf)
    (seq : UInt32) (clock : Clock) (hclock : clock.Valid) (spare : Bytes)
    (hid : Spec.Fits 6 ac.clientId) :
    ∃ frame c, (newConnect md5 ac seq clock).encode = some frame ∧
      recv Connect.decode frame spare = some c ∧ c.sourceAddr = ac.clientId ∧
      (c.check md5 (some ac)).1 = 0 := by
  obtain ⟨frame, h1, _, _, _, h2⟩ := cmpp_connect_roundtrip md5 h16 ac seq clock spare hid
  refine ⟨frame, _, h1, h2, rfl, ?_⟩
  refine ((cmpp_login_decision _ _ _).1).2 ⟨ac, rfl, rfl, ?_⟩
  have hn := (now_consistent clock hclock).1
  show md5 _ = md5 _
  rw [← timeStamp2Str_decimal]
  show md5 (ac.clientId ++ zeros 9 ++ ac.sharedSecret ++ (now clock).1) =
    md5 (ac.clientId ++ zeros 9 ++ ac.sharedSecret ++ timeStamp2Str (now clock).2)
  rw [hn]

example : (Clock.mk 26 1 2 3 4 5).Valid ∧ Spec.Fits 6 (ascii "901234") :=
  ⟨⟨by decide, by decide, by decide, by decide, by decide, by decide⟩, by decide⟩

/-- The six-byte limit is real: with every longer id the server looks up another account name. -/
theorem cmpp_login_overlong_id_fails (md5 : Bytes → Bytes) (h16 : ∀ x, (md5 x).length = 16) (ac : AuthConf) (seq : UInt32) (clock : Clock)
    (spare : Bytes) (hlong : 6 < ac.clientId.length) :
    ∃ frame c, (newConnect md5 ac seq clock).encode = some frame ∧
      recv Connect.decode frame spare = some c ∧ c.sourceAddr ≠ ac.clientId := by
  obtain ⟨frame, h1, h2⟩ := cmpp_connect_overlong md5 h16 ac seq clock spare
  refine ⟨frame, _, h1, h2, fun h => ?_⟩
  have := congrArg List.length h
  have hs : (Spec.slot 6 ac.clientId).length ≤ 6 := by
    have h3 := (List.takeWhile_sublist (fun b : UInt8 => decide (b ≠ 0)) (l := ac.clientId.take 6)).length_le
    rw [List.length_take] at h3
    exact Nat.le_trans h3 (Nat.min_le_left _ _)
  simp only at this
  omega

example : 6 < (ascii "1234567").length ∧ Spec.slot 6 (ascii "1234567") = ascii "123456" := by decide

/-! ## C26 -/

/-- The connect response: sequence number of the request, response command, the status, the request's
version, and the ISMG digest MD5(status, source address, secret) when OK, 16 NULs otherwise; it
encodes to the layout of the version and decodes (by a client that knows the version) to itself. -/
theorem cmpp_connect_response (md5 : Bytes → Bytes) (h16 : ∀ x, (md5 x).length = 16) (c : Connect)
    (code : UInt32) (hcode : code.toNat < 256) (spare : Bytes) :
    let r := c.toResponse md5 code
    r.hdr.sequenceId = c.hdr.sequenceId ∧ r.hdr.commandId = Spec.responseOf 1 ∧
    r.status.toNat = code.toNat ∧ r.version = c.version ∧
    (code = 0 → r.authenticatorISMG = md5
      ((if Spec.major c.version = 3 then [0, 0, 0, 0] else [0]) ++ c.sourceAddr ++ c.secret)) ∧
    (code ≠ 0 → r.authenticatorISMG = List.replicate 16 0) ∧
    ∃ frame, r.encode = some frame ∧
      frame = Spec.header12 r.hdr.totalLength r.hdr.commandId r.hdr.sequenceId ++
        Spec.Cmpp.connectRespBody r ∧
      Spec.SelfDelimiting frame ∧
      recv (ConnectResp.decode c.version) frame spare = some r := by
  intro r
  have hst : r.status.toNat = code.toNat := by
    show code.toUInt8.toNat = code.toNat
    simp only [UInt32.toNat_toUInt8]; omega
  have hz : (code.toUInt8 = 0) ↔ code = 0 := by
    rw [← UInt8.toNat_inj, ← UInt32.toNat_inj, UInt32.toNat_toUInt8]
    have e1 : (0 : UInt8).toNat = 0 := rfl
    have e2 : (0 : UInt32).toNat = 0 := rfl
    rw [e1, e2]; omega
  have h16' : r.authenticatorISMG.length = 16 := by
    show (if code.toUInt8 = 0 then md5 _ else zeros 16).length = 16
    split
    · exact h16 _
    · simp
  have htot : r.hdr.totalLength.toNat = 12 + (Spec.Cmpp.connectRespBody r).length := by
    show (if v3 c.version = true then (33 : UInt32) else 30).toNat = _
    unfold Spec.Cmpp.connectRespBody
    have hver : r.version = c.version := rfl
    rw [hver]
    by_cases h : v3 c.version = true
    · simp [h, (v3_iff _).1 h]
    · have h' : ¬ Spec.major c.version = 3 := fun e => h ((v3_iff _).2 e)
      simp [h, h']
  refine ⟨rfl, (by decide : CONNECT_RESP = Spec.responseOf 1), hst, rfl, ?_, ?_, ?_⟩
  · intro h0
    subst h0
    show (if UInt32.toUInt8 0 = 0 then md5 ((if v3 c.version = true then
      [0, 0, 0, UInt32.toUInt8 0] else [UInt32.toUInt8 0]) ++ c.sourceAddr ++ c.secret) else zeros 16) = _
    rw [if_pos (by decide)]
    by_cases h : v3 c.version = true
    · simp only [h, if_true, (v3_iff _).1 h]; rfl
    · have h' : ¬ Spec.major c.version = 3 := fun e => h ((v3_iff _).2 e)
      simp only [h, if_false, h', Bool.false_eq_true]; rfl
  · intro h0
    show (if code.toUInt8 = 0 then _ else zeros 16) = _
    rw [if_neg (fun e => h0 (hz.1 e))]; rfl
  · refine ⟨_, connectResp_encode r htot, rfl, selfDelimiting_header12 htot, ?_⟩
    rw [recv_header12]
    have := connectResp_reads r c.hdr.sequenceId h16' spare
    have hver : r.version = c.version := rfl
    rw [hver] at this
    refine this.trans ?_
    congr 1
    show ConnectResp.mk _ _ _ _ = ConnectResp.mk _ _ _ _
    congr 2
    by_cases h : v3 c.version = true
    · simp [h, (v3_iff _).1 h]
    · have h' : ¬ Spec.major c.version = 3 := fun e => h ((v3_iff _).2 e)
      simp [h, h']

/-- Client and server agree on the response digest after an accepted login: it is computed from the
status bytes, the client's own id and the shared secret. -/
theorem cmpp_login_response_digest (md5 : Bytes → Bytes) (h16 : ∀ x, (md5 x).length = 16) (ac : AuthConf)
    (seq : UInt32) (clock : Clock) (hclock : clock.Valid) (spare : Bytes) (hid : Spec.Fits 6 ac.clientId) :
    ∃ frame c, (newConnect md5 ac seq clock).encode = some frame ∧
      recv Connect.decode frame spare = some c ∧
      ((c.check md5 (some ac)).2.toResponse md5 (c.check md5 (some ac)).1.toUInt32).authenticatorISMG =
        md5 ((if Spec.major ac.version = 3 then [0, 0, 0, 0] else [0]) ++ ac.clientId ++ ac.sharedSecret) := by
  obtain ⟨frame, c, h1, h2, h3, h4⟩ := cmpp_login_complete md5 h16 ac seq clock hclock spare hid
  obtain ⟨frame', h1', _, _, _, h2'⟩ := cmpp_connect_roundtrip md5 h16 ac seq clock spare hid
  rw [h1'] at h1
  simp only [Option.some.injEq] at h1
  subst h1
  rw [h2'] at h2
  simp only [Option.some.injEq] at h2
  subst h2
  refine ⟨frame', _, h1', h2', ?_⟩
  obtain ⟨a, ha, hs⟩ := (cmpp_login_secret md5 _ (some ac)).1 h4
  simp only [Option.some.injEq] at ha
  subst ha
  rw [hs, h4]
  exact ((cmpp_connect_response md5 h16 _ 0 (by decide) []).2.2.2.2.1 rfl)

end Cmpp
end Gosms
