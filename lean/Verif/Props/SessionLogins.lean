import Verif.Props.Sessions
import Verif.Props.ServerWork

/-!
# C45: what an accepted login proves, in terms of the bytes of the packet
-/

namespace Gosms

theorem Cmpp.connect_fields {seq : UInt32} {body : Bytes} {l : Cmpp.Connect}
    (h : Cmpp.Connect.decode seq (Buf.exact body) = some l) : 27 ≤ body.length ∧
    l.sourceAddr = Spec.ServerTraffic.loginName .cmpp body ∧ l.authenticatorSource = (body.drop 6).take 16 ∧
    l.version = Spec.ServerTraffic.loginVersion .cmpp body ∧
    l.timestamp = Spec.ServerTraffic.loginTime .cmpp body := by
  have hl : 27 ≤ body.length := (Cmpp.connect_needs seq body).1 (by rw [h]; rfl)
  refine ⟨hl, ?_⟩
  have hdec : Cmpp.Connect.decode seq (Buf.exact body) = some ⟨⟨39, 1, seq⟩, Spec.ServerTraffic.loginName .cmpp body,
      (body.drop 6).take 16, Spec.ServerTraffic.loginVersion .cmpp body, Spec.ServerTraffic.loginTime .cmpp body, []⟩ := by
    unfold Cmpp.Connect.decode
    simp (disch := omega) only [Rd.run, bind_seek', bind_u32', bind_byte', bind_str', bind_slice', pure', Option.map_some,
      List.drop_zero, ServerTraffic.slot_take 6 (body.take 6) (by simp; omega)]
    rfl
  rw [h, Option.some.injEq] at hdec
  subst hdec
  exact ⟨rfl, rfl, rfl, rfl⟩

theorem Smgp.login_fields {seq : UInt32} {body : Bytes} {l : Smgp.Login}
    (h : Smgp.Login.decode seq (Buf.exact body) = some l) : 30 ≤ body.length ∧
    l.clientID = Spec.ServerTraffic.loginName .smgp body ∧ l.authenticatorClient = (body.drop 8).take 16 ∧
    l.version = Spec.ServerTraffic.loginVersion .smgp body ∧
    l.timestamp = Spec.ServerTraffic.loginTime .smgp body := by
  have hl : 30 ≤ body.length := (Smgp.login_needs seq body).1 (by rw [h]; rfl)
  refine ⟨hl, ?_⟩
  obtain ⟨l', hl', q2, q3, q4, q5⟩ : ∃ l, Smgp.Login.decode seq (Buf.exact body) = some l ∧
      l.clientID = Spec.ServerTraffic.loginName .smgp body ∧ l.authenticatorClient = (body.drop 8).take 16 ∧
      l.version = Spec.ServerTraffic.loginVersion .smgp body ∧ l.timestamp = Spec.ServerTraffic.loginTime .smgp body := by
    unfold Smgp.Login.decode
    simp (disch := omega) only [Rd.run, bind_seek', bind_u32', bind_byte', bind_length', bind_slice', pure', Option.map_some,
      List.drop_zero]
    exact ⟨_, rfl, rfl, rfl, rfl, rfl⟩
  rw [h, Option.some.injEq] at hl'
  subst hl'
  exact ⟨q2, q3, q4, q5⟩

theorem Sgip.bind_fields {seq : UInt32} {body : Bytes} {l : Sgip.Bind}
    (h : Sgip.Bind.decode seq (Buf.exact body) = some l) : 41 ≤ body.length ∧
    l.loginName = Spec.ServerTraffic.loginName .sgip body ∧ l.loginPassword = Spec.slot 16 ((body.drop 25).take 16) := by
  have hl : 41 ≤ body.length := (Sgip.bind_needs seq body).1 (by rw [h]; rfl)
  refine ⟨hl, ?_⟩
  obtain ⟨l', hl', q1, q2⟩ : ∃ l, Sgip.Bind.decode seq (Buf.exact body) = some l ∧
      l.loginName = Spec.ServerTraffic.loginName .sgip body ∧ l.loginPassword = Spec.slot 16 ((body.drop 25).take 16) := by
    unfold Sgip.Bind.decode
    simp (disch := omega) only [Rd.run, bind_length', bind_u32', bind_byte', bind_str', pure', Option.map_some,
      List.drop_zero, Nat.zero_add, ServerTraffic.slot_take 16 ((body.drop 9).take 16) (by simp; omega),
      ServerTraffic.slot_take 16 ((body.drop 25).take 16) (by simp; omega)]
    exact ⟨_, rfl, rfl, rfl⟩
  rw [h, Option.some.injEq] at hl'
  subst hl'
  exact ⟨q1, q2⟩

namespace Sessions
open Spec.ServerTraffic (loginName loginVersion loginTime Credentials)

/-- A login packet is accepted exactly if it is long enough, names an account, has the account's major version (CMPP,
SMGP) and the right digest or name and password. -/
theorem loginAccount_iff (e : Env) (seq : UInt32) (body : Bytes) (ac : AuthConf) :
    loginAccount e seq body = some ac ↔
      (match e.proto with | .cmpp => 27 | .smgp => 30 | .sgip => 41) ≤ body.length ∧
      e.find (loginName e.proto body) = some ac ∧
      (e.proto ≠ .sgip → Spec.major (loginVersion e.proto body) = Spec.major ac.version) ∧
      Credentials e.md5 ac e.proto body := by
  obtain ⟨proto, cap, gb, md5, find, late⟩ := e
  cases proto with
  | cmpp =>
    simp only [loginAccount]
    cases hd : Cmpp.Connect.decode seq (Buf.exact body) with
    | none =>
      have : ¬ 27 ≤ body.length := fun h => by
        have := (Cmpp.connect_needs seq body).2 h
        rw [hd] at this; cases this
      simp [this]
    | some l =>
      obtain ⟨h1, h2, h3, h4, h5⟩ := Cmpp.connect_fields hd
      have hdec := (Cmpp.cmpp_login_decision md5 l (find (loginName .cmpp body))).1
      simp only [Option.bind_some, h2, h1, true_and]
      rw [h3, h4, h5] at hdec
      constructor
      · intro h
        split at h
        · rename_i hc
          obtain ⟨a, ha, hv, hx⟩ := hdec.1 hc
          rw [ha, Option.some.injEq] at h
          subst h
          exact ⟨ha, fun _ => hv, hx⟩
        · cases h
      · rintro ⟨ha, hv, hx⟩
        rw [if_pos (hdec.2 ⟨ac, ha, hv (by decide), hx⟩), ha]
  | smgp =>
    simp only [loginAccount]
    cases hd : Smgp.Login.decode seq (Buf.exact body) with
    | none =>
      have : ¬ 30 ≤ body.length := fun h => by
        have := (Smgp.login_needs seq body).2 h
        rw [hd] at this; cases this
      simp [this]
    | some l =>
      obtain ⟨h1, h2, h3, h4, h5⟩ := Smgp.login_fields hd
      have hdec := (Smgp.smgp_login_decision md5 l (find (loginName .smgp body))).1
      simp only [Option.bind_some, h2, h1, true_and]
      rw [h3, h4, h5] at hdec
      constructor
      · intro h
        split at h
        · rename_i hc
          obtain ⟨a, ha, hv, hx⟩ := hdec.1 hc
          rw [ha, Option.some.injEq] at h
          subst h
          exact ⟨ha, fun _ => hv, hx⟩
        · cases h
      · rintro ⟨ha, hv, hx⟩
        rw [if_pos (hdec.2 ⟨ac, ha, hv (by decide), hx⟩), ha]
  | sgip =>
    simp only [loginAccount]
    cases hd : Sgip.Bind.decode seq (Buf.exact body) with
    | none =>
      have : ¬ 41 ≤ body.length := fun h => by
        have := (Sgip.bind_needs seq body).2 h
        rw [hd] at this; cases this
      simp [this]
    | some l =>
      obtain ⟨h1, h2, h3⟩ := Sgip.bind_fields hd
      have hdec := (Sgip.sgip_bind_decision l (find (loginName .sgip body))).1
      simp only [Option.bind_some, h2, h1, true_and]
      rw [h2, h3] at hdec
      constructor
      · intro h
        split at h
        · rename_i hc
          obtain ⟨a, ha, hv, hx⟩ := hdec.1 hc
          rw [ha, Option.some.injEq] at h
          subst h
          exact ⟨ha, fun h => absurd rfl h, hv, hx⟩
        · cases h
      · rintro ⟨ha, hv, hx⟩
        rw [if_pos (hdec.2 ⟨ac, ha, hx⟩), ha]

/-- C45: every login the server accepts was a login packet on that connection that names an account of the client, has the
account's version and carries the right digest (SGIP: name and password). -/
theorem accepted_credentials (e : Env) (steps : List Step) (n : Nat) (client : Bytes)
    (h : Ev.accepted n client ∈ (run e steps).log) :
    ∃ seq body ac, Step.packet n (Spec.loginCommand e.proto) seq body ∈ steps ∧
      e.find (loginName e.proto body) = some ac ∧ ac.clientId = client ∧
      (e.proto ≠ .sgip → Spec.major (loginVersion e.proto body) = Spec.major ac.version) ∧
      Credentials e.md5 ac e.proto body := by
  obtain ⟨seq, body, ac, h1, h2, h3⟩ := accepted_login e steps n client h
  obtain ⟨_, a2, a3, a4⟩ := (loginAccount_iff e seq body ac).1 h2
  exact ⟨seq, body, ac, h1, a2, h3, a3, a4⟩

/-- A client that logs in (SGIP: name and password) and one with the wrong password. -/
example : (run exampleEnv [.open 0, .packet 0 1 1 exampleBind, .loginCheck 0, .loginDone 0]).log =
      [.opened 0, .accepted 0 (ascii "corp")] ∧
    Credentials exampleEnv.md5 exampleAccount .sgip exampleBind ∧
    loginAccount exampleEnv 1 (zeros 8 ++ [1] ++ ascii "corp" ++ zeros 12 ++ ascii "px" ++ zeros 14) = none := by
  refine ⟨by decide, ?_, by decide⟩
  exact ⟨by decide, by decide⟩

end Sessions
end Gosms
