import Verif.Props.ServerReported
import Verif.Props.ClientLogin
import Verif.Props.Sgip
import Verif.Props.SmgpLogin

/-!
# C94: the client's login against the server

The client of Model/ClientLogin.lean and the server of Model/ServerTraffic.lean, joined by the bytes between them: the
client's request is a packet received by the server, and a frame the server writes is what the client reads.
-/

namespace Gosms.LoginExchange
open Gosms.ServerTraffic
open Gosms.Spec.ServerTraffic
open Gosms.ClientLogin (newSession request)

/-! ## Specification -/

/-- The fields of the client's account can be sent: CMPP ids of at most 6 bytes, SMGP ids of 8, SGIP names and passwords
of at most 16. -/
def Sendable (p : Proto) (mine : AuthConf) : Prop :=
  match p with
  | .cmpp => Spec.Fits 6 mine.clientId
  | .smgp => mine.clientId.length = 8
  | .sgip => Spec.Fits 16 mine.clientId ∧ Spec.Fits 16 mine.sharedSecret

/-- The time as ten digits: month, day, hour, minute, second. -/
def digits (c : Clock) : Bytes :=
  Spec.decimal 10 ((((c.month * 100 + c.day) * 100 + c.hour) * 100 + c.minute) * 100 + c.second)

/-- What is hashed for an account: id, NULs (9 for CMPP, 7 for SMGP), secret, time. -/
def hashed (p : Proto) (a : AuthConf) (c : Clock) : Bytes :=
  a.clientId ++ List.replicate (if p = .cmpp then 9 else 7) 0 ++ a.sharedSecret ++ digits c

/-- The client proves to know the server's account: the same digest, for SGIP the same name and password. -/
def Proves (md5 : Bytes → Bytes) (p : Proto) (mine theirs : AuthConf) (c : Clock) : Prop :=
  match p with
  | .sgip => theirs.loginName = mine.clientId ∧ theirs.sharedSecret = mine.sharedSecret
  | p => md5 (hashed p mine c) = md5 (hashed p theirs c)

/-- The server has an account for the client, of the same major version (SGIP has no versions), the client proves to know
it, and it has room for another session. -/
def Admits (md5 : Bytes → Bytes) (p : Proto) (mine : AuthConf) (c : Clock) (find : Bytes → Option AuthConf) (sessions : Int)
    (theirs : AuthConf) : Prop :=
  find mine.clientId = some theirs ∧ (p ≠ .sgip → Spec.major mine.version = Spec.major theirs.version) ∧
  Proves md5 p mine theirs c ∧ sessions < theirs.maxConns

/-- The digest in a login body (CMPP, SMGP). -/
def digestOf : Proto → Bytes → Bytes
  | .cmpp, b => (b.drop 6).take 16
  | .smgp, b => (b.drop 8).take 16
  | .sgip, _ => []

/-- What is hashed for an account and a timestamp received. -/
def hashedAt (p : Proto) (a : AuthConf) (t : UInt32) : Bytes :=
  a.clientId ++ List.replicate (if p = .cmpp then 9 else 7) 0 ++ a.sharedSecret ++ Spec.decimal 10 t.toNat

/-- The packet with these bytes arrives at the server: command, sequence number, body. -/
def arrives (frame : Bytes) (d : Draw) : Step :=
  .packet (rd32 ((frame.drop 4).take 4)) (rd32 ((frame.drop 8).take 4)) (frame.drop 12) d

/-! ## The request -/

theorem slot_pad (n : Nat) (s : Bytes) : Spec.slot n (pad n s) = Spec.slot n s := by
  rw [← trimStr_slot_of_length (length_pad n s)]
  exact trimStr_pad_slot n s

/-- The time on the wire, and hashed. -/
theorem now_digits (c : Clock) (h : c.Valid) : (now c).1 = digits c ∧ Spec.decimal 10 (now c).2.toNat = digits c := by
  have h1 := (now_consistent c h).1
  rw [timeStamp2Str_decimal] at h1
  have h2 : (now c).2.toNat = (((c.month * 100 + c.day) * 100 + c.hour) * 100 + c.minute) * 100 + c.second := by
    rw [now, mmddhhmmss_eq_fixDec c h]
    obtain ⟨_, h1, h2, h3, h4, h5⟩ := h
    generalize hv : c.month * 100000000 + c.day * 1000000 + c.hour * 10000 + c.minute * 100 + c.second = v
    have hlt : v < 4294967296 := by omega
    simp only [atoi_fixDec, UInt32.toNat_ofNat', Nat.mod_eq_of_lt (show v < 10 ^ 10 by omega)]
    omega
  rw [h2] at h1
  exact ⟨h1.symm, by rw [h2]; rfl⟩

theorem seq_at (l c s : UInt32) (b : Bytes) : rd32 (((Spec.header12 l c s ++ b).drop 8).take 4) = s := by
  have : Spec.header12 l c s ++ b = (be32 l ++ be32 c) ++ (be32 s ++ b) := by simp [Spec.header12]
  rw [this, List.drop_left' (by simp), List.take_left' (by simp), rd32_be32]

theorem seq_at20 (l c s t u : UInt32) (b : Bytes) : rd32 (((Spec.header20 l c s t u ++ b).drop 8).take 4) = s := by
  have : Spec.header20 l c s t u ++ b = (be32 l ++ be32 c) ++ (be32 s ++ (be32 t ++ (be32 u ++ b))) := by simp [Spec.header20]
  rw [this, List.drop_left' (by simp), List.take_left' (by simp), rd32_be32]

/-- The name the server reads. -/
def sentName (p : Proto) (id : Bytes) : Bytes :=
  match p with
  | .cmpp => Spec.slot 6 id
  | .smgp => pad 8 id
  | .sgip => Spec.slot 16 id

/-- What the server's check amounts to, for a client's account of any size. -/
def Checked (md5 : Bytes → Bytes) (p : Proto) (mine theirs : AuthConf) (c : Clock) : Prop :=
  match p with
  | .sgip => theirs.loginName = Spec.slot 16 mine.clientId ∧ theirs.sharedSecret = Spec.slot 16 mine.sharedSecret
  | p => md5 (hashed p mine c) = md5 (hashed p theirs c)

def requestLen : Proto → Nat | .cmpp => 39 | .smgp => 42 | .sgip => 61

/-- The request: a packet of the protocol with the login command. Its body has the fields of the account. -/
theorem request_fields (md5 : Bytes → Bytes) (h16 : ∀ x, (md5 x).length = 16) (p : Proto) (mine : AuthConf) (seq : Sgip.Seq3)
    (clock : Clock) (hclock : clock.Valid) :
    ∃ frame, request md5 p mine seq clock = some frame ∧ Spec.SelfDelimiting frame ∧
      rd32 ((frame.drop 4).take 4) = loginCmd p ∧ rd32 ((frame.drop 8).take 4) = seq.1 ∧
      frame.length = requestLen p ∧ loginName p (frame.drop 12) = sentName p mine.clientId ∧
      (p ≠ .sgip → loginVersion p (frame.drop 12) = mine.version) ∧
      ∀ a, Credentials md5 a p (frame.drop 12) ↔ Checked md5 p mine a clock := by
  obtain ⟨hd1, hd2⟩ := now_digits clock hclock
  cases p with
  | cmpp =>
    obtain ⟨frame, h1, h2, h3, h4⟩ : ∃ frame, (Cmpp.newConnect md5 mine seq.1 clock).encode = some frame ∧
        frame = Spec.header12 39 1 seq.1 ++ Spec.Cmpp.connectBody (Cmpp.newConnect md5 mine seq.1 clock) ∧
        frame.length = 39 ∧ Spec.SelfDelimiting frame := by
      have hlen : (Spec.Cmpp.connectBody (Cmpp.newConnect md5 mine seq.1 clock)).length = 27 := by
        simp [Spec.Cmpp.connectBody]
      refine ⟨_, Cmpp.connect_encode _ rfl, rfl, ?_, ?_⟩
      · rw [List.length_append, length_header12, hlen]
      · exact selfDelimiting_header12 (by rw [hlen]; rfl)
    have hb : frame.drop 12 = pad 6 mine.clientId ++ (md5 (hashed .cmpp mine clock) ++ ([mine.version] ++ be32 (now clock).2)) := by
      rw [h2, List.drop_left' (by simp)]
      have : md5 (mine.clientId ++ zeros 9 ++ mine.sharedSecret ++ (now clock).1) = md5 (hashed .cmpp mine clock) := by
        rw [hd1]; rfl
      simp only [Spec.Cmpp.connectBody, Cmpp.newConnect, List.flatten_cons, List.flatten_nil, List.append_nil, this]
      rw [pad_eq_self (h16 _)]
    have ht : loginTime .cmpp (frame.drop 12) = (now clock).2 := by
      simp only [loginTime, hb]
      rw [show (23 : Nat) = 6 + (16 + 1) from rfl, ← List.drop_drop, List.drop_left' (by simp), ← List.drop_drop,
        List.drop_left' (h16 _), List.drop_left' (by rfl), List.take_of_length_le (by simp), rd32_be32]
    refine ⟨frame, h1, h4, ?_, ?_, h3, ?_, ?_, ?_⟩
    · rw [h2]; simp [Spec.header12, loginCmd, rd32_be32]
    · rw [h2]; exact seq_at _ _ _ _
    · simp only [loginName, hb]
      rw [List.take_left' (by simp), slot_pad]
      rfl
    · intro _
      simp only [loginVersion, hb, List.getD_eq_getElem?_getD]
      rw [List.getElem?_append_right (by simp), List.getElem?_append_right (by simp [h16])]
      simp [h16]
    · intro a
      simp only [Credentials, ht, hd2]
      rw [hb]
      rw [List.drop_left' (by simp), List.take_left' (h16 _)]
      rfl
  | smgp =>
    obtain ⟨frame, h1, h2, h3, h4, _⟩ := Smgp.smgp_login_frame md5 h16 mine seq.1 clock []
    have hb : frame.drop 12 = pad 8 mine.clientId ++ (md5 (hashed .smgp mine clock) ++ ([2] ++ (be32 (now clock).2 ++ [mine.version]))) := by
      rw [h2, List.drop_left' (by simp)]
      have : md5 (mine.clientId ++ zeros 7 ++ mine.sharedSecret ++ (now clock).1) = md5 (hashed .smgp mine clock) := by
        rw [hd1]; rfl
      simp only [Spec.Smgp.loginBody, Smgp.newLogin, List.flatten_cons, List.flatten_nil, List.append_nil, this]
      rw [pad_eq_self (h16 _)]
    have ht : loginTime .smgp (frame.drop 12) = (now clock).2 := by
      simp only [loginTime, hb]
      rw [show (25 : Nat) = 8 + (16 + 1) from rfl, ← List.drop_drop, List.drop_left' (by simp), ← List.drop_drop,
        List.drop_left' (h16 _), List.drop_left' (by rfl), List.take_left' (by simp), rd32_be32]
    refine ⟨frame, h1, h4, ?_, ?_, h3, ?_, ?_, ?_⟩
    · rw [h2]; simp [Spec.header12, loginCmd, rd32_be32]
    · rw [h2]; exact seq_at _ _ _ _
    · simp only [loginName, hb]
      rw [List.take_left' (by simp)]
      rfl
    · intro _
      simp only [loginVersion, hb, List.getD_eq_getElem?_getD]
      rw [List.getElem?_append_right (by simp), List.getElem?_append_right (by simp [h16]), List.getElem?_append_right (by simp [h16]),
        List.getElem?_append_right (by simp [h16])]
      simp [h16]
    · intro a
      simp only [Credentials, ht, hd2]
      rw [hb]
      rw [List.drop_left' (by simp), List.take_left' (h16 _)]
      rfl
  | sgip =>
    have h1 := Sgip.bind_encode (Sgip.newBind mine 1 seq) rfl
    refine ⟨_, h1, selfDelimiting_header20 (by rw [Sgip.length_bindBody]; rfl), ?_, ?_, ?_, ?_, ?_, ?_⟩
    · simp [Spec.header20, loginCmd, rd32_be32, Sgip.newBind, Sgip.BIND]
    · exact seq_at20 _ _ _ _ _ _
    · rw [List.length_append, Sgip.length_bindBody]; simp [Spec.header20, requestLen]
    all_goals
      have hb : (Spec.header20 61 (Sgip.newBind mine 1 seq).hdr.commandId (Sgip.newBind mine 1 seq).hdr.seq0
          (Sgip.newBind mine 1 seq).hdr.seq1 (Sgip.newBind mine 1 seq).hdr.seq2 ++ Spec.Sgip.bindBody (Sgip.newBind mine 1 seq)).drop 12 =
          be32 seq.2.1 ++ (be32 seq.2.2 ++ ([1] ++ (pad 16 mine.clientId ++ (pad 16 mine.sharedSecret ++ zeros 8)))) := by
        have : Spec.header20 61 (Sgip.newBind mine 1 seq).hdr.commandId (Sgip.newBind mine 1 seq).hdr.seq0
          (Sgip.newBind mine 1 seq).hdr.seq1 (Sgip.newBind mine 1 seq).hdr.seq2 ++ Spec.Sgip.bindBody (Sgip.newBind mine 1 seq) =
          (be32 61 ++ (be32 Sgip.BIND ++ be32 seq.1)) ++
          (be32 seq.2.1 ++ (be32 seq.2.2 ++ ([1] ++ (pad 16 mine.clientId ++ (pad 16 mine.sharedSecret ++ zeros 8))))) := by
          simp [Spec.header20, Spec.Sgip.bindBody, Sgip.newBind]
        rw [this, List.drop_left' (by simp)]
      have hn : loginName .sgip (be32 seq.2.1 ++ (be32 seq.2.2 ++ ([1] ++ (pad 16 mine.clientId ++ (pad 16 mine.sharedSecret ++ zeros 8))))) =
          Spec.slot 16 mine.clientId := by
        simp only [loginName]
        rw [show (9 : Nat) = 4 + (4 + 1) from rfl, ← List.drop_drop, List.drop_left' (by simp), ← List.drop_drop,
          List.drop_left' (by simp), List.drop_left' (by rfl), List.take_left' (by simp), slot_pad]
    · rw [hb, hn]; rfl
    · exact fun h => absurd rfl h
    · intro a
      rw [hb]
      simp only [Credentials, Checked, hn]
      rw [show (25 : Nat) = 4 + (4 + (1 + 16)) from rfl, ← List.drop_drop, List.drop_left' (by simp), ← List.drop_drop,
          List.drop_left' (by simp), ← List.drop_drop, List.drop_left' (by rfl), List.drop_left' (by simp), List.take_left' (by simp), slot_pad]

theorem verdict_iff {md5 : Bytes → Bytes} {p : Proto} {body : Bytes} {find : Bytes → Option AuthConf} {sessions : Int} {a : AuthConf} :
    loginVerdict md5 p body find sessions = .ok a ↔ find (loginName p body) = some a ∧
      (p ≠ .sgip → Spec.major (loginVersion p body) = Spec.major a.version) ∧ Credentials md5 a p body ∧ sessions < a.maxConns := by
  unfold loginVerdict
  cases hf : find (loginName p body) with
  | none => simp
  | some b =>
    dsimp only
    by_cases h1 : p ≠ .sgip ∧ Spec.major (loginVersion p body) ≠ Spec.major b.version
    · rw [if_pos h1]
      refine ⟨(fun h => by cases h), fun ⟨q1, q2, _⟩ => ?_⟩
      injection q1 with q1; subst q1
      exact absurd (q2 h1.1) h1.2
    rw [if_neg h1]
    by_cases h2 : Credentials md5 b p body
    · rw [if_neg (fun h => h h2)]
      by_cases h3 : b.maxConns ≤ sessions
      · rw [if_pos h3]
        refine ⟨(fun h => by cases h), fun ⟨q1, _, _, q4⟩ => ?_⟩
        injection q1 with q1; subst q1
        omega
      · rw [if_neg h3]
        constructor
        · intro h
          injection h with h; subst h
          exact ⟨rfl, fun hp => Classical.byContradiction fun hv => h1 ⟨hp, hv⟩, h2, by omega⟩
        · intro h
          injection h.1 with h; rw [h]
    · rw [if_pos h2]
      refine ⟨(fun h => by cases h), fun ⟨q1, _, q3, _⟩ => ?_⟩
      injection q1 with q1; subst q1
      exact absurd q3 h2

/-! ## The response -/

theorem codes : be32 0 = [0, 0, 0, 0] ∧ be32 2 = [0, 0, 0, 2] ∧ be32 3 = [0, 0, 0, 3] ∧ be32 4 = [0, 0, 0, 4] ∧ be32 5 = [0, 0, 0, 5] ∧
    be32 69 = [0, 0, 0, 69] ∧ be32 21 = [0, 0, 0, 21] ∧ be32 22 = [0, 0, 0, 22] := by decide

/-- What the client makes of the server's login response. -/
theorem client_reads {md5 : Bytes → Bytes} (h16 : ∀ x, (md5 x).length = 16) (p : Proto) (v : UInt8) (seq : UInt32) (body : Bytes)
    (l : Login) (h8 : p = .sgip → 8 ≤ body.length) (hv : p ≠ .sgip → loginVersion p body = v) :
    (newSession p v false ⟨loginResponse md5 p seq body l, false⟩ = some .login ↔ ∃ a, l = .ok a) ∧
      (newSession p v false ⟨loginResponse md5 p seq body l, false⟩ = none ↔ ¬ ∃ a, l = .ok a) := by
  have hd := length_digest h16
  have hdec : ∀ b : Bytes, 12 + b.length < 4294967296 → Spec.declared (response (loginCmd p) seq b) = (response (loginCmd p) seq b).length := by
    intro b hb
    simp only [response, Spec.header12, Spec.declared, List.append_assoc, List.length_append, length_be32]
    rw [List.take_left' (by simp)]
    have := congrArg UInt32.toNat (rd32_be32 (UInt32.ofNat (12 + b.length)))
    have h1 := ofBE_lt (be32 (UInt32.ofNat (12 + b.length)))
    simp only [length_be32] at h1
    simp only [rd32, UInt32.toNat_ofNat'] at this
    omega
  have hcmd : ∀ b : Bytes, Spec.command (response (loginCmd p) seq b) = 0x80000001 := by
    intro b
    simp only [response, Spec.header12, Spec.command, List.append_assoc]
    rw [List.drop_left' (by simp), List.take_left' (by simp), rd32_be32]
    cases p <;> decide
  have hlen : (loginResponse md5 p seq body l).length = ClientLogin.Spec.length p v := by
    cases p with
    | cmpp =>
      have := hv (by simp)
      simp only [loginResponse, response, ClientLogin.Spec.length, this]
      by_cases h3 : Spec.major v = 3
      · simp [h3, hd]
      · simp [h3, hd]
    | smgp => simp [loginResponse, response, ClientLogin.Spec.length, hd]
    | sgip =>
      have := h8 rfl
      simp [loginResponse, response, ClientLogin.Spec.length]; omega
  have hdl : Spec.declared (loginResponse md5 p seq body l) = (loginResponse md5 p seq body l).length ∧
      Spec.command (loginResponse md5 p seq body l) = 0x80000001 := by
    have : (loginResponse md5 p seq body l).length ≤ 33 := by
      rw [hlen]
      cases p with
      | cmpp => simp only [ClientLogin.Spec.length]; split <;> decide
      | smgp => exact Nat.le_refl _
      | sgip => show 21 ≤ 33; decide
    unfold loginResponse at this ⊢
    refine ⟨hdec _ ?_, hcmd _⟩
    simp only [response, List.length_append, length_header12] at this
    omega
  rw [ClientLogin.newSession_full p v _ hlen]
  have key : (if p = .cmpp ∧ Spec.major v = 3 then ((loginResponse md5 p seq body l).drop 15).take 1 = [0]
      else ∀ b ∈ ClientLogin.Spec.status p v (loginResponse md5 p seq body l), b = 0) ↔ ∃ a, l = .ok a := by
    have h12 : ∀ b : Bytes, (response (loginCmd p) seq b).drop 12 = b := fun b => by
      rw [response, List.drop_left' (by simp)]
    cases p with
    | cmpp =>
      have hv' := hv (by simp)
      by_cases h3 : Spec.major v = 3
      · rw [if_pos ⟨rfl, h3⟩]
        have e15 : ∀ b : Bytes, (response (loginCmd .cmpp) seq b).drop 15 = b.drop 3 := fun b => by
          rw [← h12 b, List.drop_drop, h12]
        simp only [loginResponse, e15, hv', h3, if_true]
        cases l <;> simp [Login.code, codes]
      · rw [if_neg (fun h => h3 h.2)]
        simp only [ClientLogin.Spec.status, h3, if_false, loginResponse, h12, hv', List.cons_append, List.nil_append,
          List.take_succ_cons, List.take_zero, List.mem_singleton, forall_eq]
        cases l <;> simp [Login.code]
    | smgp =>
      rw [if_neg (by simp)]
      simp only [ClientLogin.Spec.status, loginResponse, h12, List.append_assoc]
      rw [List.take_left' (by simp)]
      cases l <;> simp [Login.code, codes]
    | sgip =>
      rw [if_neg (by simp)]
      have e20 : ∀ b : Bytes, (response (loginCmd .sgip) seq b).drop 20 = b.drop 8 := fun b => by
        rw [← h12 b, List.drop_drop, h12]
      simp only [ClientLogin.Spec.status, loginResponse, e20]
      rw [List.drop_left' (by have := h8 rfl; simp; omega)]
      cases l <;> simp [Login.code]
  rw [← key]
  simp only [hdl.1, hdl.2, true_and]
  constructor <;> split <;> simp [*]

/-! ## The server's session -/

/-- The state of the server's session follows from the login responses it has written. -/
theorem stat_inv (e : Env) (steps : List Step) : (run e steps).crashed = false →
    ((run e steps).stat = .login → ∃ x ∈ (run e steps).wire, isLogin x.2.2 = true) ∧
    ((run e steps).stat = .closing → ∃ x ∈ (run e steps).wire, x.2.2 = .refuse) ∧
    ((run e steps).stat = .connect → ∀ x ∈ (run e steps).wire, isLogin x.2.2 = false ∧ x.2.2 ≠ .refuse) := by
  induction steps using snoc_induction with
  | nil => intro _; exact ⟨(fun h => by cases h), (fun h => by cases h), fun _ x hx => by cases hx⟩
  | snoc l x ih =>
    rw [run_snoc]
    generalize run e l = s at *
    unfold step
    split
    · exact ih
    · rename_i hal
      have ih := ih (by simp only [not_or] at hal; simpa using hal.1)
      cases x with
      | packet cmd seq body d => intro _; simp only [onPacket]; split <;> exact ih
      | run i =>
        intro _
        have go : ∀ t, (onGo s i t).wire = s.wire ∧ (onGo s i t).stat = s.stat := by
          intro t; unfold onGo
          split
          · exact ⟨rfl, rfl⟩
          · rename_i a _ _; cases a <;> exact ⟨rfl, rfl⟩
        simp only [onRun]
        split
        · exact ih
        · rename_i t _
          split
          · split <;> exact ih
          · rw [(go t).1, (go t).2]; exact ih
          · rw [(go t).1, (go t).2]; exact ih
      | drop i =>
        intro _
        simp only [onDrop]
        split
        · split <;> exact ih
        · exact ih
      | loop =>
        simp only [onLoop]
        split
        · intro _; exact ih
        · rename_i k f a q hq
          intro hc
          rw [(onAfter_reqs _ _).2.1]
          have old : isLogin a = false → a ≠ .refuse → (onAfter { s with queue := q, wire := s.wire ++ [(k, f, a)] } a).stat = s.stat := by
            intro h1 h2
            cases a <;> first | rfl | exact absurd rfl h2 | cases h1
          cases ha : isLogin a with
          | true =>
            cases a with
            | login ac =>
              simp only [onAfter] at hc ⊢
              by_cases hw : ac.mtWindowSize < 0
              · rw [if_pos hw] at hc; cases hc
              · rw [if_neg hw]
                exact ⟨fun _ => ⟨_, List.mem_append_right _ (List.mem_singleton_self _), rfl⟩, (fun h => by cases h), (fun h => by cases h)⟩
            | _ => cases ha
          | false =>
            by_cases hr : a = .refuse
            · subst hr
              simp only [onAfter]
              exact ⟨(fun h => by cases h), fun _ => ⟨_, List.mem_append_right _ (List.mem_singleton_self _), rfl⟩, (fun h => by cases h)⟩
            · rw [old ha hr]
              refine ⟨fun h => ?_, fun h => ?_, fun h x hx => ?_⟩
              · obtain ⟨x, hx, h⟩ := ih.1 h; exact ⟨x, List.mem_append_left _ hx, h⟩
              · obtain ⟨x, hx, h⟩ := ih.2.1 h; exact ⟨x, List.mem_append_left _ hx, h⟩
              · rcases List.mem_append.1 hx with hx | hx
                · exact ih.2.2 h x hx
                · simp only [List.mem_singleton] at hx; subst hx; exact ⟨ha, hr⟩
      | close => intro _; exact ih

/-- Which requests the written login responses are for. -/
theorem login_origin (e : Env) (h16 : ∀ x, (e.md5 x).length = 16) (steps : List Step) {x : Nat × Bytes × After}
    (hx : x ∈ (run e steps).wire) (h : isLogin x.2.2 = true ∨ x.2.2 = .refuse) :
    ∃ seq body d, Step.packet (loginCmd e.proto) seq body d ∈ steps ∧
      x.2.2 = afterLogin (loginVerdict e.md5 e.proto body d.find d.sessions) := by
  obtain ⟨r, hr, hg, hE⟩ := wire_entry h16 (inv_run_all e steps) hx
  obtain ⟨a, b, hab, _⟩ := req_origin e steps _ _ hr
  generalize hy : x.2 = y at hE h
  cases hE with
  | submit _ _ _ => rcases h with h | h <;> (dsimp only at h; split at h <;> cases h)
  | report => rcases h with h | h <;> cases h
  | login h1 h2 =>
    refine ⟨r.seq, r.body, r.draw, ?_, rfl⟩
    rw [hab, ← h2]; exact List.mem_append_right _ List.mem_cons_self
  | active => rcases h with h | h <;> cases h
  | terminate => rcases h with h | h <;> cases h

/-- A login response on the wire is one that completes or refuses the login. -/
theorem login_written (e : Env) (h16 : ∀ x, (e.md5 x).length = 16) (steps : List Step) {x : Nat × Bytes × After}
    (hx : x ∈ (run e steps).wire) (hc : command x.2.1 = be32 (Spec.responseOf (loginCmd e.proto))) :
    isLogin x.2.2 = true ∨ x.2.2 = .refuse := by
  obtain ⟨r, hr, hg, hE⟩ := wire_entry h16 (inv_run_all e steps) hx
  have hne : x.2.2 ≠ .rpt := by
    intro h
    have := (entry_report hE h).1
    rw [hc] at this
    exact deliver_ne e.proto (cmds_lt e.proto).2.1 this.symm
  obtain ⟨q1, q2, q3⟩ := entry_answer hg hE hne
  rw [hc] at q1
  have hk := (chain_login hg.1).2 (responseOf_inj (cmds_lt e.proto).2.1 q3 (be32_inj q1)).symm
  generalize x.2 = y at hE
  cases hE with
  | submit h => rw [hk] at h; cases h
  | report _ h => rw [hk] at h; cases h
  | active _ h => rw [hk] at h; cases h
  | terminate h => rw [hk] at h; cases h
  | login _ _ =>
    dsimp only
    cases decision e r with
    | ok a => exact .inl rfl
    | _ => exact .inr rfl

/-- Strings without NUL, followed by NUL, have the same end. -/
theorem first_nul : ∀ {a b x y : Bytes}, 0 ∉ a → 0 ∉ b → a ++ 0 :: x = b ++ 0 :: y → a = b ∧ x = y
  | [], [], _, _, _, _, h => ⟨rfl, by injection h⟩
  | [], c :: _, _, _, _, hb, h => by
    injection h with h _; exact absurd (h ▸ List.mem_cons_self) hb
  | c :: _, [], _, _, ha, _, h => by
    injection h with h _; exact absurd (h ▸ List.mem_cons_self) ha
  | c :: a, d :: b, x, y, ha, hb, h => by
    injection h with h1 h2
    obtain ⟨e1, e2⟩ := first_nul (fun h => ha (List.mem_cons_of_mem _ h)) (fun h => hb (List.mem_cons_of_mem _ h)) h2
    exact ⟨by rw [h1, e1], e2⟩

theorem filter_unique {α : Type} {q : α → Bool} : ∀ {l : List α} {x y : α}, (l.filter q).length ≤ 1 → x ∈ l → y ∈ l → q x = true → q y = true →
    x = y := by
  intro l x y h hx hy qx qy
  have hx' := List.mem_filter.2 ⟨hx, qx⟩
  have hy' := List.mem_filter.2 ⟨hy, qy⟩
  generalize l.filter q = m at *
  match m, h with
  | [], _ => cases hx'
  | [z], _ =>
    rw [List.mem_singleton] at hx' hy'
    rw [hx', hy']
  | _ :: _ :: _, h => simp at h

/-- A connection with one login. -/
theorem only_login (p : Proto) (steps : List Step) (hone : (steps.filter (onPackets fun c _ _ _ => c = loginCmd p)).length ≤ 1) {x : Step}
    (hx : x ∈ steps) (hxl : onPackets (fun c _ _ _ => c = loginCmd p) x = true) :
    ∀ s b d', Step.packet (loginCmd p) s b d' ∈ steps → Step.packet (loginCmd p) s b d' = x :=
  fun s b d' hm => filter_unique hone hm hx (by simp [onPackets]) hxl

theorem sentName_eq {p : Proto} {mine : AuthConf} (hs : Sendable p mine) : sentName p mine.clientId = mine.clientId := by
  cases p with
  | cmpp => exact Spec.slot_fits hs
  | smgp => exact pad_eq_self hs
  | sgip => exact Spec.slot_fits hs.1

theorem checked_iff {md5 : Bytes → Bytes} {p : Proto} {mine theirs : AuthConf} {c : Clock} (hs : Sendable p mine) :
    Checked md5 p mine theirs c ↔ Proves md5 p mine theirs c := by
  cases p with
  | cmpp => exact Iff.rfl
  | smgp => exact Iff.rfl
  | sgip => simp only [Checked, Proves, Spec.slot_fits hs.1, Spec.slot_fits hs.2]

/-- C94: on a connection whose only login is that of a client of this library, any login response makes the client's session logged in
exactly if the server has an account of that name, with the same major version and the secret proved by the client, and room for another
session. If not, the client gets no session and the server closes the connection. The server's session is logged in exactly if the client's
is. For every schedule, and whatever else is sent on the connection. Partial: for accounts whose id (SGIP: and password) arrives whole; see
`smgp_login_short_id_fails` and `cmpp_login_overlong_id_fails`. -/
theorem login_exchange_partial (e : Env) (h16 : ∀ x, (e.md5 x).length = 16) (mine : AuthConf) (hs : Sendable e.proto mine) (seq : Sgip.Seq3)
    (clock : Clock) (hclock : clock.Valid) (frame : Bytes) (hreq : request e.md5 e.proto mine seq clock = some frame) (d : Draw)
    (steps : List Step)
    (honly : ∀ s b d', Step.packet (loginCmd e.proto) s b d' ∈ steps → Step.packet (loginCmd e.proto) s b d' = arrives frame d)
    (f : Bytes) (hf : f ∈ frames (run e steps)) (hc : command f = be32 (Spec.responseOf (loginCmd e.proto))) :
    (newSession e.proto mine.version false ⟨f, false⟩ = some .login ↔ ∃ theirs, Admits e.md5 e.proto mine clock d.find d.sessions theirs) ∧
    (newSession e.proto mine.version false ⟨f, false⟩ = none ↔ ¬ ∃ theirs, Admits e.md5 e.proto mine clock d.find d.sessions theirs) ∧
    (newSession e.proto mine.version false ⟨f, false⟩ = none → (run e steps).closing = true) ∧
    ((run e steps).crashed = false →
      ((run e steps).stat = .login ↔ newSession e.proto mine.version false ⟨f, false⟩ = some .login)) := by
  obtain ⟨frame', hreq', _, hcmd, hseq, hlen, hname, hver, hcred⟩ := request_fields e.md5 h16 e.proto mine seq clock hclock
  have : frame' = frame := by rw [hreq] at hreq'; exact (Option.some.inj hreq').symm
  subst this
  have hv : ∀ a, loginVerdict e.md5 e.proto (frame'.drop 12) d.find d.sessions = .ok a ↔ Admits e.md5 e.proto mine clock d.find d.sessions a := by
    intro a
    rw [verdict_iff, hname, sentName_eq hs, hcred a, checked_iff hs]
    constructor
    · rintro ⟨q1, q2, q3, q4⟩; exact ⟨q1, fun hp => by rw [← hver hp]; exact q2 hp, q3, q4⟩
    · rintro ⟨q1, q2, q3, q4⟩; exact ⟨q1, fun hp => by rw [hver hp]; exact q2 hp, q3, q4⟩
  have hbody : ∀ s b d', Step.packet (loginCmd e.proto) s b d' ∈ steps → b = frame'.drop 12 ∧ d' = d := by
    intro s b d' hm
    have := honly s b d' hm
    unfold arrives at this
    injection this with _ _ h3 h4
    exact ⟨h3, h4⟩
  obtain ⟨s, b, d', hm, hfe, href, hcl⟩ := login_response_honest e h16 steps f hf hc
  obtain ⟨rfl, rfl⟩ := hbody s b d' hm
  have h8 : e.proto = .sgip → 8 ≤ (frame'.drop 12).length := by
    intro hp; rw [List.length_drop, hlen, hp]; decide
  have hcr := client_reads h16 e.proto mine.version s (frame'.drop 12) (loginVerdict e.md5 e.proto (frame'.drop 12) d'.find d'.sessions) h8 hver
  rw [← hfe] at hcr
  simp only [hv] at hcr href
  refine ⟨hcr.1, hcr.2, fun hn => hcl ?_, fun hcrash => ?_⟩
  · cases hr : refusal e.proto f with
    | true => rfl
    | false => exact absurd (href.1 hr) (hcr.2.1 hn)
  · rw [hcr.1]
    have hst := stat_inv e steps hcrash
    have hafter : ∀ x ∈ (run e steps).wire, isLogin x.2.2 = true ∨ x.2.2 = .refuse →
        x.2.2 = afterLogin (loginVerdict e.md5 e.proto (frame'.drop 12) d'.find d'.sessions) := by
      intro x hx h
      obtain ⟨s2, b2, d2, hm2, h2⟩ := login_origin e h16 steps hx h
      obtain ⟨rfl, rfl⟩ := hbody s2 b2 d2 hm2
      exact h2
    constructor
    · intro h
      obtain ⟨x, hx, hl⟩ := hst.1 h
      have := hafter x hx (.inl hl)
      rw [this] at hl
      cases hd : loginVerdict e.md5 e.proto (frame'.drop 12) d'.find d'.sessions with
      | ok a => exact ⟨a, (hv a).1 hd⟩
      | _ => rw [hd] at hl; cases hl
    · rintro ⟨a, ha⟩
      have hd := (hv a).2 ha
      cases hs' : (run e steps).stat with
      | login => rfl
      | closing =>
        obtain ⟨x, hx, hr⟩ := hst.2.1 hs'
        have := hafter x hx (.inr hr)
        rw [hd, hr] at this
        cases this
      | connect =>
        obtain ⟨x, hx, rfl⟩ := frame_iff.1 hf
        exact absurd (login_written e h16 steps hx hc) (by simp [hst.2.2 hs' x hx])

/-- C94: and there is an answer. A server at rest, on a connection still open, has answered the client's login. -/
theorem login_completes_partial (e : Env) (h16 : ∀ x, (e.md5 x).length = 16) (mine : AuthConf) (hs : Sendable e.proto mine) (seq : Sgip.Seq3)
    (clock : Clock) (hclock : clock.Valid) (frame : Bytes) (hreq : request e.md5 e.proto mine seq clock = some frame) (d : Draw)
    (a b : List Step) (hwin : Accounts (fun ac => 1 ≤ ac.mtWindowSize) (a ++ arrives frame d :: b))
    (hone : ((a ++ arrives frame d :: b).filter (onPackets fun c _ _ _ => c = loginCmd e.proto)).length ≤ 1)
    (hc : (run e (a ++ arrives frame d :: b)).crashed = false) (ho : (run e (a ++ arrives frame d :: b)).isOpen = true)
    (hset : Settled e (run e (a ++ arrives frame d :: b))) :
    ∃ f ∈ frames (run e (a ++ arrives frame d :: b)),
      command f = be32 (Spec.responseOf (loginCmd e.proto)) ∧
      (newSession e.proto mine.version false ⟨f, false⟩ = some .login ↔ ∃ theirs, Admits e.md5 e.proto mine clock d.find d.sessions theirs) ∧
      ((run e (a ++ arrives frame d :: b)).stat = .login ↔ ∃ theirs, Admits e.md5 e.proto mine clock d.find d.sessions theirs) := by
  obtain ⟨frame', hreq', _, hcmd, _⟩ := request_fields e.md5 h16 e.proto mine seq clock hclock
  have : frame' = frame := by rw [hreq] at hreq'; exact (Option.some.inj hreq').symm
  subst this
  have harr : arrives frame' d = .packet (loginCmd e.proto) (rd32 ((frame'.drop 8).take 4)) (frame'.drop 12) d := by
    unfold arrives; rw [hcmd]
  have hans : answer e (run e a).ver (loginCmd e.proto) (rd32 ((frame'.drop 8).take 4)) (frame'.drop 12) d =
      some (loginResponse e.md5 e.proto (rd32 ((frame'.drop 8).take 4)) (frame'.drop 12)
        (loginVerdict e.md5 e.proto (frame'.drop 12) d.find d.sessions)) := by
    unfold answer
    rw [if_neg (by cases e.proto <;> decide), if_pos rfl]
  have hmem := packet_answered_partial e h16 a b (loginCmd e.proto) (rd32 ((frame'.drop 8).take 4)) (frame'.drop 12) d _ hans
    (fun h => absurd h (by cases e.proto <;> decide))
  rw [← harr] at hmem
  have hmem := hmem hwin hone hc ho hset
  have hcom := (answer_command hans).1
  have honly := only_login e.proto (a ++ arrives frame' d :: b) hone (x := arrives frame' d) (by simp) (by rw [harr]; simp [onPackets])
  have := login_exchange_partial e h16 mine hs seq clock hclock frame' hreq d (a ++ arrives frame' d :: b) honly _ hmem hcom
  exact ⟨_, hmem, hcom, this.1, (this.2.2.2 hc).trans this.1⟩

/-- A client of account "A" at 3 January, 04:05:06; the server has the account, with room for one session. -/
def exampleClock : Clock := ⟨26, 1, 3, 4, 5, 6⟩
def exampleSteps : List Step :=
  [arrives ((request demoEnv.md5 .cmpp demoAccount (7, 0, 0) exampleClock).getD []) demoDraw, .run 0, .run 0, .loop]

theorem example_request : ∃ frame, request demoEnv.md5 .cmpp demoAccount (7, 0, 0) exampleClock = some frame ∧
    exampleSteps = [] ++ arrives frame demoDraw :: [.run 0, .run 0, .loop] ∧ exampleClock.Valid ∧ Sendable .cmpp demoAccount := by
  have hv : exampleClock.Valid := by refine ⟨?_, ?_, ?_, ?_, ?_, ?_⟩ <;> decide
  obtain ⟨frame, h, _⟩ := request_fields demoEnv.md5 (by simp [demoEnv]) .cmpp demoAccount (7, 0, 0) exampleClock hv
  exact ⟨frame, h, by simp [exampleSteps, h], hv, (by decide : Spec.Fits 6 demoAccount.clientId)⟩

set_option maxRecDepth 20000 in
theorem example_run : (run demoEnv exampleSteps).tasks = [] ∧ (run demoEnv exampleSteps).queue = [] ∧
    (run demoEnv exampleSteps).crashed = false ∧ (run demoEnv exampleSteps).isOpen = true ∧
    ((run demoEnv exampleSteps).wire.map fun x => (command x.2.1, seqOf .cmpp x.2.1)) = [(be32 0x80000001, be32 7)] ∧
    (exampleSteps.filter (onPackets fun c _ _ _ => c = loginCmd .cmpp)).length ≤ 1 := by
  decide

/-- The server answers, the client's session is logged in, and so is the server's. -/
example : ∃ f ∈ frames (run demoEnv exampleSteps), newSession .cmpp demoAccount.version false ⟨f, false⟩ = some .login ∧
    (run demoEnv exampleSteps).stat = .login := by
  obtain ⟨frame, h1, h2, h3, h4⟩ := example_request
  have hr := example_run
  rw [h2] at hr ⊢
  have hwin : Accounts (fun ac => 1 ≤ ac.mtWindowSize) ([] ++ arrives frame demoDraw :: [.run 0, .run 0, .loop]) := by
    intro cmd seq body d hm n ac hf
    simp only [arrives, List.nil_append, List.mem_cons, Step.packet.injEq, reduceCtorEq, List.not_mem_nil, or_false] at hm
    obtain ⟨_, _, _, rfl⟩ := hm
    obtain rfl := Option.some.inj hf; decide
  obtain ⟨f, q1, q2, q3, q4⟩ := login_completes_partial demoEnv (by simp [demoEnv]) demoAccount h4 (7, 0, 0) exampleClock h3 frame h1 demoDraw []
    [.run 0, .run 0, .loop] hwin hr.2.2.2.2.2 hr.2.2.1 hr.2.2.2.1 (settled_of_empty hr.1 hr.2.1)
  have adm : ∃ theirs, Admits demoEnv.md5 demoEnv.proto demoAccount exampleClock demoDraw.find demoDraw.sessions theirs :=
    ⟨demoAccount, rfl, fun _ => rfl, rfl, by decide⟩
  exact ⟨f, q1, q3.2 adm, q4.2 adm⟩

/-! ## C95: a recorded login cannot be used again -/

/-- C95 fails, for every login: the body of an accepted login, sent again by anyone on any connection, at any later time, is accepted again
while the account is as it was and has room. -/
theorem login_replay_fails (e : Env) (h16 : ∀ x, (e.md5 x).length = 16) (body : Bytes) (d : Draw) (ac : AuthConf)
    (hok : loginVerdict e.md5 e.proto body d.find d.sessions = .ok ac)
    (d' : Draw) (hfind : d'.find (loginName e.proto body) = d.find (loginName e.proto body)) (hroom : d'.sessions < ac.maxConns)
    (seq : UInt32) (a b : List Step)
    (hwin : Accounts (fun ac => 1 ≤ ac.mtWindowSize) (a ++ .packet (loginCmd e.proto) seq body d' :: b))
    (hone : ((a ++ .packet (loginCmd e.proto) seq body d' :: b).filter (onPackets fun c _ _ _ => c = loginCmd e.proto)).length ≤ 1)
    (hc : (run e (a ++ .packet (loginCmd e.proto) seq body d' :: b)).crashed = false)
    (ho : (run e (a ++ .packet (loginCmd e.proto) seq body d' :: b)).isOpen = true)
    (hset : Settled e (run e (a ++ .packet (loginCmd e.proto) seq body d' :: b))) :
    loginResponse e.md5 e.proto seq body (.ok ac) ∈ frames (run e (a ++ .packet (loginCmd e.proto) seq body d' :: b)) ∧
    (run e (a ++ .packet (loginCmd e.proto) seq body d' :: b)).stat = .login := by
  have hok' : loginVerdict e.md5 e.proto body d'.find d'.sessions = .ok ac := by
    rw [verdict_iff] at hok ⊢
    exact ⟨hfind.trans hok.1, hok.2.1, hok.2.2.1, hroom⟩
  have hans : answer e (run e a).ver (loginCmd e.proto) seq body d' = some (loginResponse e.md5 e.proto seq body (.ok ac)) := by
    unfold answer
    rw [if_neg (by cases e.proto <;> decide), if_pos rfl, hok']
  have hmem := packet_answered_partial e h16 a b (loginCmd e.proto) seq body d' _ hans
    (fun h => absurd h (by cases e.proto <;> decide)) hwin hone hc ho hset
  refine ⟨hmem, ?_⟩
  have honly := only_login e.proto _ hone (x := .packet (loginCmd e.proto) seq body d') (by simp) (by simp [onPackets])
  have hst := stat_inv e _ hc
  have hafter : ∀ x ∈ (run e (a ++ .packet (loginCmd e.proto) seq body d' :: b)).wire, isLogin x.2.2 = true ∨ x.2.2 = .refuse → x.2.2 = .login ac := by
    intro x hx h
    obtain ⟨s2, b2, d2, hm2, h2⟩ := login_origin e h16 _ hx h
    injection honly s2 b2 d2 hm2 with _ _ e3 e4
    rw [e3, e4, hok'] at h2
    exact h2
  cases hs' : (run e (a ++ .packet (loginCmd e.proto) seq body d' :: b)).stat with
  | login => rfl
  | closing =>
    obtain ⟨x, hx, hr⟩ := hst.2.1 hs'
    have := hafter x hx (.inr hr)
    rw [hr] at this
    cases this
  | connect =>
    obtain ⟨x, hx, hxf⟩ := frame_iff.1 hmem
    have hn := hst.2.2 hs' x hx
    exact absurd (login_written e h16 _ hx (by rw [hxf]; exact (answer_command hans).1)) (by simp [hn])

/-- The recorded login of the example, sent again on another connection. -/
example : loginVerdict demoEnv.md5 .cmpp demoLogin demoDraw.find demoDraw.sessions = .ok demoAccount ∧
    loginResponse demoEnv.md5 .cmpp 9 demoLogin (.ok demoAccount) ∈ frames (run demoEnv [.packet 1 9 demoLogin demoDraw, .run 0, .run 0, .loop]) := by
  decide

/-- What a digest is good for: one that is accepted for an account and a time is not accepted for another account, secret or time.
Partial: it is good for the same account and time again, see `login_replay_fails`. Account ids have no NUL; the two inputs of the hash do not collide. -/
theorem login_not_transferable_partial (md5 : Bytes → Bytes) (p : Proto) (hp : p ≠ .sgip) (body body' : Bytes)
    (find find' : Bytes → Option AuthConf) (n n' : Int) (ac ac' : AuthConf) (hok : loginVerdict md5 p body find n = .ok ac)
    (hok' : loginVerdict md5 p body' find' n' = .ok ac') (h0 : 0 ∉ ac.clientId) (h0' : 0 ∉ ac'.clientId)
    (hdig : digestOf p body = digestOf p body')
    (hcol : md5 (hashedAt p ac (loginTime p body)) = md5 (hashedAt p ac' (loginTime p body')) →
      hashedAt p ac (loginTime p body) = hashedAt p ac' (loginTime p body')) :
    ac.clientId = ac'.clientId ∧ ac.sharedSecret = ac'.sharedSecret ∧ loginTime p body = loginTime p body' := by
  have h1 := (verdict_iff.1 hok).2.2.1
  have h2 := (verdict_iff.1 hok').2.2.1
  have h3 : hashedAt p ac (loginTime p body) = hashedAt p ac' (loginTime p body') := by
    apply hcol
    cases p with
    | cmpp => exact h1.symm.trans (hdig.trans h2)
    | smgp => exact h1.symm.trans (hdig.trans h2)
    | sgip => exact absurd rfl hp
  have hl : ∀ t : UInt32, (Spec.decimal 10 t.toNat).length = 10 := by intro t; simp [Spec.decimal]
  unfold hashedAt at h3
  have h4 := List.append_inj' h3 (by rw [hl, hl])
  obtain ⟨k, hk⟩ : ∃ k, (if p = .cmpp then 9 else 7) = k + 1 := by
    by_cases h : p = .cmpp
    · exact ⟨8, by rw [if_pos h]⟩
    · exact ⟨6, by rw [if_neg h]⟩
  rw [hk] at h4
  have h5 := h4.1
  simp only [List.append_assoc, List.replicate_succ, List.cons_append] at h5
  obtain ⟨e1, e2⟩ := first_nul h0 h0' h5
  refine ⟨e1, List.append_cancel_left e2, ?_⟩
  have h6 := h4.2
  rw [← fixDec_eq_decimal, ← fixDec_eq_decimal] at h6
  have b1 := (loginTime p body).toNat_lt
  have b2 := (loginTime p body').toNat_lt
  exact UInt32.toNat_inj.1 (fixDec_inj (by omega) (by omega) h6)

/-- With the identity for the hash nothing collides; the digest of a login at time 7 is another than at time 8. -/
example : hashedAt .cmpp { clientId := ascii "901234", sharedSecret := ascii "s" } 7 ≠
    hashedAt .cmpp { clientId := ascii "901234", sharedSecret := ascii "s" } 8 := by decide

/-! ## C96: the client knows the server -/

/-- C96 fails: whatever 16 bytes stand where the server's digest belongs, whatever sequence number and version the response has, a client
takes status 0 for the answer to its login. A server needs to know no secret. -/
theorem server_unproven_fails (p : Proto) (hp : p ≠ .sgip) (v ver : UInt8) (seq : UInt32) (digest : Bytes) (hd : digest.length = 16) :
    newSession p v false ⟨Spec.header12 (if p = .cmpp ∧ Spec.major v ≠ 3 then 30 else 33) 0x80000001 seq ++
      ((if p = .cmpp ∧ Spec.major v ≠ 3 then [0] else [0, 0, 0, 0]) ++ digest ++ [ver]), false⟩ = some .login := by
  have h12 : ∀ (l s : UInt32) (b : Bytes), (Spec.header12 l 0x80000001 s ++ b).drop 12 = b := fun l s b => List.drop_left' (by simp)
  have hcmd : ∀ (l s : UInt32) (b : Bytes), Spec.command (Spec.header12 l 0x80000001 s ++ b) = 0x80000001 := by
    intro l s b
    simp only [Spec.header12, Spec.command, List.append_assoc]
    rw [List.drop_left' (by simp), List.take_left' (by simp), rd32_be32]
  have hdec : ∀ (l s : UInt32) (b : Bytes), Spec.declared (Spec.header12 l 0x80000001 s ++ b) = ofBE (be32 l) := by
    intro l s b
    simp only [Spec.header12, Spec.declared, List.append_assoc]
    rw [List.take_left' (by simp)]
  by_cases hc : p = .cmpp ∧ Spec.major v ≠ 3
  · simp only [if_pos hc]
    rw [ClientLogin.newSession_full _ _ _ (by simp [hc.1, ClientLogin.Spec.length, hc.2, hd]), if_pos]
    refine ⟨by rw [hdec]; simp [hd]; decide, hcmd _ _ _, ?_⟩
    rw [if_neg (fun h => hc.2 h.2)]
    simp [ClientLogin.Spec.status, hc.1, hc.2, h12]
  · simp only [if_neg hc]
    have hl : ClientLogin.Spec.length p v = 33 := by
      cases p with
      | cmpp => have : Spec.major v = 3 := Classical.byContradiction fun h => hc ⟨rfl, h⟩
                simp [ClientLogin.Spec.length, this]
      | smgp => rfl
      | sgip => exact absurd rfl hp
    rw [ClientLogin.newSession_full _ _ _ (by simp [hl, hd]), if_pos]
    refine ⟨by rw [hdec]; simp [hd]; decide, hcmd _ _ _, ?_⟩
    split
    · have e15 : ∀ (l s : UInt32) (b : Bytes), (Spec.header12 l 0x80000001 s ++ b).drop 15 = b.drop 3 := fun l s b => by
        rw [← h12 l s b, List.drop_drop, h12]
      rw [e15]; rfl
    · cases p with
      | cmpp => rename_i h; exact absurd ⟨rfl, Classical.byContradiction fun h3 => hc ⟨rfl, h3⟩⟩ h
      | smgp => simp [ClientLogin.Spec.status, h12]
      | sgip => exact absurd rfl hp

/-- The same for SGIP, which has no digest: any sequence number will do. -/
theorem sgip_unrelated_answer_fails (v : UInt8) (s0 s1 s2 : UInt32) :
    newSession .sgip v false ⟨Spec.header20 21 0x80000001 s0 s1 s2 ++ [0], false⟩ = some .login := by
  have e : Spec.header20 21 0x80000001 s0 s1 s2 ++ [0] = Spec.header12 21 0x80000001 s0 ++ (be32 s1 ++ (be32 s2 ++ [0])) := by
    simp [Spec.header20, Spec.header12]
  rw [e, ClientLogin.newSession_full _ _ _ (by simp [ClientLogin.Spec.length]), if_pos]
  refine ⟨?_, ?_, ?_⟩
  · simp only [Spec.header12, Spec.declared, List.append_assoc]
    rw [List.take_left' (by simp)]
    simp; decide
  · simp only [Spec.header12, Spec.command, List.append_assoc]
    rw [List.drop_left' (by simp), List.take_left' (by simp), rd32_be32]
  · rw [if_neg (by simp)]
    have : Spec.header12 21 0x80000001 s0 ++ (be32 s1 ++ (be32 s2 ++ [0])) = (Spec.header12 21 0x80000001 s0 ++ be32 s1 ++ be32 s2) ++ [0] := by simp
    simp only [ClientLogin.Spec.status, this]
    rw [List.drop_left' (by simp)]
    simp

/-- What this library's server offers: the response to an accepted login has the digest of status, id and secret, the request's sequence
number and the client's version. Partial: the client checks none of them. -/
theorem server_proof_offered_partial (e : Env) (h16 : ∀ x, (e.md5 x).length = 16) (hp : e.proto ≠ .sgip) (mine : AuthConf)
    (hs : Sendable e.proto mine) (seq : Sgip.Seq3) (clock : Clock) (hclock : clock.Valid) (frame : Bytes)
    (hreq : request e.md5 e.proto mine seq clock = some frame) (d : Draw) (steps : List Step)
    (honly : ∀ s b d', Step.packet (loginCmd e.proto) s b d' ∈ steps → Step.packet (loginCmd e.proto) s b d' = arrives frame d)
    (f : Bytes) (hf : f ∈ frames (run e steps)) (hc : command f = be32 (Spec.responseOf (loginCmd e.proto)))
    (theirs : AuthConf) (hadm : Admits e.md5 e.proto mine clock d.find d.sessions theirs) :
    f = Spec.header12 (if e.proto = .cmpp ∧ Spec.major mine.version ≠ 3 then 30 else 33) 0x80000001 seq.1 ++
      ((if e.proto = .cmpp ∧ Spec.major mine.version ≠ 3 then [0] else [0, 0, 0, 0]) ++
        e.md5 ((if e.proto = .cmpp ∧ Spec.major mine.version = 3 then [0, 0, 0, 0] else [0]) ++ mine.clientId ++ theirs.sharedSecret) ++
        [mine.version]) := by
  obtain ⟨frame', hreq', _, hcmd, hseq, hlen, hname, hver, hcred⟩ := request_fields e.md5 h16 e.proto mine seq clock hclock
  have : frame' = frame := by rw [hreq] at hreq'; exact (Option.some.inj hreq').symm
  subst this
  obtain ⟨s, b, d', hm, hfe, _⟩ := login_response_honest e h16 steps f hf hc
  have := honly s b d' hm
  unfold arrives at this
  injection this with _ e2 e3 e4
  subst e2 e3 e4
  have hv : loginVerdict e.md5 e.proto (frame'.drop 12) d'.find d'.sessions = .ok theirs := by
    rw [verdict_iff, hname, sentName_eq hs, hcred theirs, checked_iff hs]
    exact ⟨hadm.1, fun hp => by rw [hver hp]; exact hadm.2.1 hp, hadm.2.2⟩
  rw [hfe, hv, hseq]
  have hver := hver hp
  have hname := hname.trans (sentName_eq hs)
  obtain ⟨proto, gb, md5⟩ := e
  cases proto with
  | cmpp =>
    simp only at hname hver h16 ⊢
    by_cases h3 : Spec.major mine.version = 3
    · simp [loginResponse, response, hver, hname, h3, Login.digest, Login.code, h16, loginCmd, codes, Spec.responseOf]
      rfl
    · simp [loginResponse, response, hver, hname, h3, Login.digest, Login.code, h16, loginCmd, Spec.responseOf]
      rfl
  | smgp =>
    simp only at hname hver h16 ⊢
    simp [loginResponse, response, hver, hname, Login.digest, Login.code, h16, loginCmd, codes, Spec.responseOf]
    rfl
  | sgip => exact absurd rfl hp

end Gosms.LoginExchange
