import Verif.Model.ClientLogin
import Verif.Lemmas.Cmpp
import Verif.Lemmas.Smgp
import Verif.Lemmas.Sgip
import Verif.Spec.Traffic

/-!
# C60: client sessions are logged in
-/

namespace Gosms.ClientLogin

namespace Spec

/-- The status field of a login response. CMPP: 4 bytes after the header from version 3 on, 1 byte before; SMGP: 4
bytes after the header; SGIP: 1 byte after the header of 20. -/
def status (p : Proto) (version : UInt8) (resp : Bytes) : Bytes :=
  match p with
  | .cmpp => if Spec.major version = 3 then (resp.drop 12).take 4 else (resp.drop 12).take 1
  | .smgp => (resp.drop 12).take 4
  | .sgip => (resp.drop 20).take 1

/-- Length of a login response. -/
def length (p : Proto) (version : UInt8) : Nat :=
  match p with
  | .cmpp => if Spec.major version = 3 then 33 else 30
  | .smgp => 33
  | .sgip => 21

/-- The bytes are a login response that accepts the login: right length, right command, status 0. -/
def Accepts (p : Proto) (version : UInt8) (resp : Bytes) : Prop :=
  resp.length = length p version ∧ Gosms.Spec.declared resp = resp.length ∧
  Gosms.Spec.command resp = 0x80000001 ∧ ∀ b ∈ status p version resp, b = 0

end Spec

theorem respLen_eq (p : Proto) (v : UInt8) : respLen p v = Spec.length p v := by
  unfold respLen Spec.length
  cases p with
  | cmpp =>
    simp only
    by_cases h : Cmpp.v3 v = true
    · rw [if_pos h, if_pos ((Cmpp.v3_iff v).1 h)]
    · rw [if_neg h, if_neg (fun e => h ((Cmpp.v3_iff v).2 e))]
  | smgp => rfl
  | sgip => rfl

theorem rd32_declared {b : Bytes} (hb : b.length < 4294967296) (h4 : 4 ≤ b.length) :
    rd32 (b.take 4) = UInt32.ofNat b.length ↔ Gosms.Spec.declared b = b.length := by
  unfold rd32 Gosms.Spec.declared
  have h1 := ofBE_lt (b.take 4)
  rw [List.length_take, Nat.min_eq_left h4] at h1
  constructor
  · intro h
    have := congrArg UInt32.toNat h
    simp only [UInt32.toNat_ofNat'] at this
    omega
  · intro h; rw [h]

theorem split_list {n : Nat} (b : Bytes) (h : n < b.length) : ∃ a x c, b = a ++ x :: c ∧ a.length = n :=
  ⟨b.take n, b[n], b.drop (n + 1), by rw [← List.drop_eq_getElem_cons, List.take_append_drop], by simp; omega⟩

theorem snoc_list {n : Nat} (b : Bytes) (h : b.length = n + 1) : ∃ a x, b = a ++ [x] ∧ a.length = n := by
  obtain ⟨a, x, c, rfl, ha⟩ := split_list (n := n) b (by omega)
  refine ⟨a, x, ?_, ha⟩
  rw [List.length_append, List.length_cons, ha] at h
  have : c = [] := List.eq_nil_of_length_eq_zero (by omega)
  rw [this]

theorem cmpp_decode3 (v : UInt8) (seq : UInt32) (a c : Bytes) (x : UInt8) (hv : Cmpp.v3 v = true) (ha : a.length = 3)
    (hc : c.length = 17) :
    ∃ r, Cmpp.ConnectResp.decode v seq (Buf.exact (a ++ x :: c)) = some r ∧ r.status = x := by
  obtain ⟨au, ver, rfl, hau⟩ := snoc_list c hc
  refine ⟨{ hdr := ⟨33, Cmpp.CONNECT_RESP, seq⟩, status := x, authenticatorISMG := au, version := ver }, ?_, rfl⟩
  unfold Cmpp.ConnectResp.decode
  simp only [hv, if_true]
  apply Rd.run_exact_of_reads
  refine Rd.reads_bind (o1 := a) (o2 := x :: (au ++ [ver])) (Rd.reads_skip ha) ?_
  refine Rd.reads_bind (o1 := [x]) (o2 := au ++ [ver]) (Rd.reads_byte x) ?_
  refine Rd.reads_bind (o1 := au) (o2 := [ver]) (Rd.reads_slice hau) ?_
  exact Rd.reads_bind (o1 := [ver]) (o2 := []) (Rd.reads_byte ver) (Rd.reads_pure _)

theorem cmpp_decode2 (v : UInt8) (seq : UInt32) (c : Bytes) (x : UInt8) (hv : ¬ Cmpp.v3 v = true)
    (hc : c.length = 17) :
    ∃ r, Cmpp.ConnectResp.decode v seq (Buf.exact (x :: c)) = some r ∧ r.status = x := by
  obtain ⟨au, ver, rfl, hau⟩ := snoc_list c hc
  refine ⟨{ hdr := ⟨30, Cmpp.CONNECT_RESP, seq⟩, status := x, authenticatorISMG := au, version := ver }, ?_, rfl⟩
  unfold Cmpp.ConnectResp.decode
  simp only [hv, Bool.false_eq_true, if_false]
  apply Rd.run_exact_of_reads
  refine Rd.reads_bind (o1 := [x]) (o2 := au ++ [ver]) (Rd.reads_byte x) ?_
  refine Rd.reads_bind (o1 := au) (o2 := [ver]) (Rd.reads_slice hau) ?_
  exact Rd.reads_bind (o1 := [ver]) (o2 := []) (Rd.reads_byte ver) (Rd.reads_pure _)

theorem smgp_decode (seq : UInt32) (b : Bytes) (hb : b.length = 21) :
    ∃ r, Smgp.LoginRsp.decode seq (Buf.exact b) = some r ∧ be32 r.status = b.take 4 := by
  obtain ⟨au, ver, e, hau⟩ := snoc_list (n := 16) (b.drop 4) (by simp; omega)
  have h4 : (b.take 4).length = 4 := by simp; omega
  refine ⟨{ hdr := ⟨33, Smgp.LOGIN_RESP, seq⟩, status := rd32 (b.take 4), authenticatorServer := au, version := ver }, ?_,
    be32_rd32 h4⟩
  have key := Smgp.loginRsp_reads { status := rd32 (b.take 4), authenticatorServer := au, version := ver } seq hau []
  have eb : Gosms.Spec.Smgp.loginRspBody { status := rd32 (b.take 4), authenticatorServer := au, version := ver } ++ [] = b := by
    unfold Gosms.Spec.Smgp.loginRspBody
    simp only [List.flatten_cons, List.flatten_nil, List.append_nil]
    rw [be32_rd32 h4, pad_eq_self hau, ← e, List.take_append_drop]
  rw [eb] at key
  unfold Buf.exact
  rw [hb]
  exact key

theorem sgip_decode (cid : UInt32) (b : Bytes) (hb : b.length = 9) :
    ∃ r, Sgip.bindRspDecode cid (Buf.exact b) = some r ∧ [r.status] = (b.drop 8).take 1 := by
  obtain ⟨a, st, rfl, ha⟩ := snoc_list b hb
  refine ⟨{ hdr := ⟨21, Sgip.BIND_RESP, cid, rd32 (a.take 4), rd32 (a.drop 4)⟩, status := st }, ?_, by simp [ha]⟩
  have key := Sgip.bindRsp_reads st cid (rd32 (a.take 4)) (rd32 (a.drop 4)) []
  rw [be32_rd32 (by simp; omega), be32_rd32 (by simp; omega)] at key
  have e : [a.take 4, a.drop 4, [st]].flatten ++ [] = a ++ [st] := by
    simp only [List.flatten_cons, List.flatten_nil, List.append_nil]
    rw [← List.append_assoc, List.take_append_drop]
  rw [e] at key
  unfold Buf.exact
  rw [hb]
  exact key

/-- What `NewSession` decides on a complete answer: declared length and command must be right and the status zero; of the four
status bytes CMPP 3 looks at the last only. -/
theorem newSession_full (p : Proto) (v : UInt8) (resp : Bytes) (hlen : resp.length = Spec.length p v) :
    newSession p v false ⟨resp, false⟩ = if Gosms.Spec.declared resp = resp.length ∧ Gosms.Spec.command resp = 0x80000001 ∧
      (if p = .cmpp ∧ Gosms.Spec.major v = 3 then (resp.drop 15).take 1 = [0] else ∀ b ∈ Spec.status p v resp, b = 0)
      then some .login else none := by
  have hsmall : resp.length < 4294967296 ∧ 12 ≤ resp.length := by
    rw [hlen]
    cases p with
    | cmpp => simp only [Spec.length]; split <;> decide
    | smgp => show 33 < 4294967296 ∧ 12 ≤ 33; decide
    | sgip => show 21 < 4294967296 ∧ 12 ≤ 21; decide
  unfold newSession login
  simp only [Bool.false_eq_true, if_false, false_or]
  rw [if_neg (by rw [respLen_eq]; exact fun h => h hlen)]
  by_cases hd : Gosms.Spec.declared resp = resp.length
  · rw [if_neg (fun h => h ((rd32_declared hsmall.1 (by omega)).2 hd))]
    have hd' : (Gosms.Spec.declared resp = resp.length) = True := by simp [hd]
    simp only [hd', true_and]
    unfold decide'
    have hcmd : rd32 ((resp.drop 4).take 4) = Gosms.Spec.command resp := rfl
    simp only [hcmd]
    cases p with
    | cmpp =>
      simp only
      by_cases hc : Gosms.Spec.command resp = 0x80000001
      · have : ¬ Gosms.Spec.command resp ≠ Cmpp.CONNECT_RESP := fun h => h hc
        rw [if_neg this]
        by_cases hv : Cmpp.v3 v = true
        · have hm := (Cmpp.v3_iff v).1 hv
          have h33 : resp.length = 33 := by rw [hlen]; simp [Spec.length, hm]
          obtain ⟨a, x, c, e, ha⟩ := split_list (n := 3) (resp.drop 12) (by simp; omega)
          have hcl : c.length = 17 := by
            have := congrArg List.length e
            simp only [List.length_drop, List.length_append, List.length_cons, ha] at this
            omega
          obtain ⟨r, hr, hs⟩ := cmpp_decode3 v (rd32 ((resp.drop 8).take 4)) a c x hv ha hcl
          have e15 : (resp.drop 15).take 1 = [x] := by
            have : resp.drop 15 = (resp.drop 12).drop 3 := by rw [List.drop_drop]
            rw [this, e, List.drop_append_of_le_length (by omega), List.drop_eq_nil_of_le (by omega)]
            rfl
          rw [e, hr, e15]
          simp only [hm, and_true, if_true, hc, true_and, List.cons.injEq]
          rw [hs]
          by_cases hx : x = 0
          · simp [hx]
          · simp [hx]
        · have hm : ¬ Gosms.Spec.major v = 3 := fun h => hv ((Cmpp.v3_iff v).2 h)
          have h30 : resp.length = 30 := by rw [hlen]; simp [Spec.length, hm]
          obtain ⟨a, x, c, e, ha⟩ := split_list (n := 0) (resp.drop 12) (by simp; omega)
          have ha : a = [] := List.eq_nil_of_length_eq_zero ha
          subst ha
          have hcl : c.length = 17 := by
            have := congrArg List.length e
            simp only [List.length_drop, List.nil_append, List.length_cons] at this
            omega
          obtain ⟨r, hr, hs⟩ := cmpp_decode2 v (rd32 ((resp.drop 8).take 4)) c x hv hcl
          have es : Spec.status .cmpp v resp = [x] := by
            unfold Spec.status
            simp only [hm, if_false]
            rw [e]; rfl
          rw [e, List.nil_append, hr, es]
          simp only [hm, and_false, if_false, hc, true_and, List.mem_singleton, forall_eq]
          rw [hs]
          by_cases hx : x = 0
          · simp [hx]
          · simp [hx]
      · have : Gosms.Spec.command resp ≠ Cmpp.CONNECT_RESP := hc
        rw [if_pos this]
        simp [hc]
    | smgp =>
      simp only [reduceCtorEq, false_and, if_false]
      by_cases hc : Gosms.Spec.command resp = 0x80000001
      · have : ¬ Gosms.Spec.command resp ≠ Smgp.LOGIN_RESP := fun h => h hc
        rw [if_neg this]
        have h33 : resp.length = 33 := hlen
        obtain ⟨r, hr, hs⟩ := smgp_decode (rd32 ((resp.drop 8).take 4)) (resp.drop 12) (by simp; omega)
        rw [hr]
        simp only [hc, true_and, Spec.status]
        rw [← hs]
        by_cases hx : r.status = 0
        · rw [hx]
          have : ∀ b ∈ be32 0, b = 0 := by decide
          rw [if_pos this]
          rfl
        · have : ¬ ∀ b ∈ be32 r.status, b = 0 := by
            intro hall
            apply hx
            have : be32 r.status = be32 0 := by
              have e : be32 0 = List.replicate 4 0 := by decide
              rw [e]
              exact List.eq_replicate_iff.2 ⟨by simp, hall⟩
            exact be32_inj this
          simp [hx, this]
      · have : Gosms.Spec.command resp ≠ Smgp.LOGIN_RESP := hc
        rw [if_pos this]
        simp [hc]
    | sgip =>
      simp only [reduceCtorEq, false_and, if_false]
      by_cases hc : Gosms.Spec.command resp = 0x80000001
      · have : ¬ Gosms.Spec.command resp ≠ Sgip.BIND_RESP := fun h => h hc
        rw [if_neg this]
        have h21 : resp.length = 21 := hlen
        obtain ⟨r, hr, hs⟩ := sgip_decode (rd32 ((resp.drop 8).take 4)) (resp.drop 12) (by simp; omega)
        rw [List.drop_drop] at hs
        rw [hr]
        simp only [hc, true_and, Spec.status]
        rw [← hs]
        by_cases hx : r.status = 0
        · simp [hx]
        · simp [hx]
      · have : Gosms.Spec.command resp ≠ Sgip.BIND_RESP := hc
        rw [if_pos this]
        simp [hc]
  · rw [if_pos (fun h => hd ((rd32_declared hsmall.1 (by omega)).1 h))]
    simp [hd]

/-- C60 when the response arrives in one piece: for SMGP, SGIP and CMPP 2, `NewSession` returns a session exactly if
the carrier accepted the login, and the session is logged in. For CMPP 3 this holds for status values below 256. -/
theorem new_session_partial (p : Proto) (v : UInt8) (resp : Bytes) (hlen : resp.length = Spec.length p v)
    (h3 : p = .cmpp → Gosms.Spec.major v = 3 → (resp.drop 12).take 3 = [0, 0, 0]) :
    ((newSession p v false ⟨resp, false⟩).isSome ↔ Spec.Accepts p v resp) ∧
    (∀ s, newSession p v false ⟨resp, false⟩ = some s → healthy s = true) := by
  rw [newSession_full p v resp hlen]
  have key : (if p = .cmpp ∧ Gosms.Spec.major v = 3 then (resp.drop 15).take 1 = [0] else ∀ b ∈ Spec.status p v resp, b = 0) ↔
      ∀ b ∈ Spec.status p v resp, b = 0 := by
    split
    · rename_i h
      have e : Spec.status p v resp = [0, 0, 0] ++ (resp.drop 15).take 1 := by
        rw [← h3 h.1 h.2, h.1]
        unfold Spec.status
        simp only [h.2, if_true]
        have : (resp.drop 12).take 4 = (resp.drop 12).take (3 + 1) := rfl
        rw [this, List.take_add, List.drop_drop]
      rw [e]
      have hl : ((resp.drop 15).take 1).length = 1 := by
        rw [h.1] at hlen
        simp only [Spec.length, h.2, if_true] at hlen
        simp; omega
      obtain ⟨a, x, e2, ha⟩ := snoc_list (n := 0) _ hl
      have ha : a = [] := List.eq_nil_of_length_eq_zero ha
      subst ha
      rw [e2]
      simp
    · exact Iff.rfl
  unfold Spec.Accepts
  by_cases hc : Gosms.Spec.declared resp = resp.length ∧ Gosms.Spec.command resp = 0x80000001 ∧
      ∀ b ∈ Spec.status p v resp, b = 0
  · rw [if_pos ⟨hc.1, hc.2.1, key.2 hc.2.2⟩]
    refine ⟨⟨fun _ => ⟨hlen, hc⟩, fun _ => rfl⟩, ?_⟩
    intro s h
    injection h with h; subst h; rfl
  · rw [if_neg (fun h => hc ⟨h.1, h.2.1, key.1 h.2.2⟩)]
    refine ⟨⟨(fun h => by cases h), (fun h => absurd h.2 hc)⟩, ?_⟩
    intro s h
    cases h

/-- A failed write, or a read error, gives no session. -/
theorem new_session_io_error (p : Proto) (v : UInt8) (got : Got) :
    newSession p v true got = none ∧ (got.err = true → newSession p v false got = none) := by
  constructor
  · simp [newSession, login]
  · intro h; simp [newSession, login, h]

/-- C60 fails: whatever the carrier answers, if the first read returns fewer bytes than a response, without an
error, `NewSession` returns a session. The session is not logged in, and not healthy. -/
theorem new_session_short_read_fails (p : Proto) (v : UInt8) (b : Bytes) (h : b.length < Spec.length p v) :
    newSession p v false ⟨b, false⟩ = some .connect ∧ healthy .connect = false ∧ ¬ Spec.Accepts p v b := by
  refine ⟨?_, rfl, fun ha => by have := ha.1; omega⟩
  unfold newSession login
  simp only [Bool.false_eq_true, if_false, false_or]
  rw [if_pos (by rw [respLen_eq]; omega)]

/-- C60 fails for CMPP 3: a response whose status is any multiple of 256 is taken for an acceptance. -/
theorem new_session_status_fails (seq : UInt32) (a b c : UInt8) (rest : Bytes) (hrest : rest.length = 17) :
    newSession .cmpp 0x30 false ⟨Gosms.Spec.header12 33 0x80000001 seq ++ [a, b, c, 0] ++ rest, false⟩ = some .login ∧
    (a ≠ 0 ∨ b ≠ 0 ∨ c ≠ 0 →
      ¬ Spec.Accepts .cmpp 0x30 (Gosms.Spec.header12 33 0x80000001 seq ++ [a, b, c, 0] ++ rest)) := by
  have hh : ∀ t u s, Gosms.Spec.header12 t u s = be32 t ++ be32 u ++ be32 s := by
    intro t u s; simp [Gosms.Spec.header12]
  have hl : (Gosms.Spec.header12 33 0x80000001 seq).length = 12 := by rw [hh]; simp
  have hm : Gosms.Spec.major 0x30 = 3 := by decide
  have e12 : (Gosms.Spec.header12 33 0x80000001 seq ++ [a, b, c, 0] ++ rest).drop 12 = [a, b, c, 0] ++ rest := by
    rw [List.append_assoc, List.drop_append_of_le_length (by omega), List.drop_eq_nil_of_le (by omega)]
    rfl
  constructor
  · rw [newSession_full _ _ _ (by simp [hl, hrest, Spec.length, hm])]
    rw [if_pos]
    refine ⟨?_, ?_, ?_⟩
    · unfold Gosms.Spec.declared
      rw [hh]
      simp only [List.append_assoc]
      rw [List.take_append_of_le_length (by simp), List.take_of_length_le (by simp)]
      simp [hrest]
      decide
    · unfold Gosms.Spec.command
      rw [hh]
      simp only [List.append_assoc]
      rw [List.drop_append_of_le_length (by simp), List.drop_eq_nil_of_le (by simp), List.nil_append,
        List.take_append_of_le_length (by simp), List.take_of_length_le (by simp)]
      exact rd32_be32 _
    · rw [if_pos ⟨rfl, hm⟩]
      have : ∀ l : Bytes, l.drop 15 = (l.drop 12).drop 3 := by intro l; rw [List.drop_drop]
      rw [this, e12]
      rfl
  · intro hne hacc
    have h4 := hacc.2.2.2
    unfold Spec.status at h4
    simp only [hm, if_true] at h4
    rw [e12] at h4
    simp only [List.cons_append, List.take_succ_cons, List.take_zero, List.mem_cons] at h4
    rcases hne with h | h | h
    · exact h (h4 a (by simp))
    · exact h (h4 b (by simp))
    · exact h (h4 c (by simp))

/-- An accepting SGIP response, a refusing one, and one that arrives in two pieces. -/
example : newSession .sgip 0x12 false ⟨be32 21 ++ be32 0x80000001 ++ zeros 8 ++ [0, 0, 0, 7] ++ [0], false⟩ = some .login ∧
    newSession .sgip 0x12 false ⟨be32 21 ++ be32 0x80000001 ++ zeros 8 ++ [0, 0, 0, 7] ++ [1], false⟩ = none ∧
    newSession .sgip 0x12 false ⟨be32 21 ++ be32 0x80000001 ++ zeros 8 ++ [0, 0, 0, 7], false⟩ = some .connect := by decide

end Gosms.ClientLogin
