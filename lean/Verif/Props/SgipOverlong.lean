import Verif.Props.Sgip

/-!
# C40: over-long fields of the other SGIP packets

The bind cuts its strings to their slots. The report lets an over-long number spill, but only into bytes that are
written afterwards or that nobody reads. The deliver lets it spill into the next number.
-/

namespace Gosms.Sgip
open Gosms.Rd

/-- An SGIP bind with over-long strings: each is cut to its slot and nothing else is affected. -/
theorem sgip_bind_overlong_isolated (b : Bind) (spare : Bytes) (hl : b.hdr.packetLength = 61) :
    ∃ frame, b.encode = some frame ∧ Spec.SelfDelimiting frame ∧
      recv Bind.decode frame spare =
        some { b with hdr := ⟨61, 1, b.hdr.seq0, b.hdr.seq1, b.hdr.seq2⟩
                      loginName := Spec.slot 16 b.loginName
                      loginPassword := Spec.slot 16 b.loginPassword } := by
  refine ⟨_, bind_encode b hl, selfDelimiting_header20 (by rw [length_bindBody]; rfl), ?_⟩
  rw [recv_header20, length_bindBody, bind_reads]
  rfl

example : Spec.slot 16 (ascii "12345678901234567890") = ascii "1234567890123456" ∧
    (newBind { clientId := ascii "12345678901234567890" } 1 (1, 2, 3)).hdr.packetLength = 61 := by decide

/-- Writing inside a frame that is already filled. -/
theorem overwrite_at {P R s : Bytes} (i : Nat) (hi : i = P.length) :
    overwrite (P ++ R) i s = P ++ (s ++ R.drop s.length) := by
  subst hi
  unfold overwrite
  rw [List.take_left' rfl, List.append_assoc, List.drop_append, List.drop_of_length_le (by omega)]
  simp

/-- An SGIP report with an over-long number: the number is cut to its slot, everything else arrives as sent. The
rest of the number overwrites state and error code for a moment and stays in the reserved bytes. -/
theorem sgip_report_overlong_isolated (r : Report) (spare : Bytes) (hm : r.mtSequence.length = 3)
    (h0 : 0 ∉ r.userNumber) (hl : r.hdr.packetLength = 64) :
    ∃ frame, r.encode = some frame ∧ Spec.SelfDelimiting frame ∧
      recv Report.decode frame spare =
        some { r with hdr := ⟨64, 5, r.hdr.seq0, r.hdr.seq1, r.hdr.seq2⟩
                      userNumber := Spec.slot 21 r.userNumber
                      reserve := [] } := by
  match hmt : r.mtSequence with
  | [m0, m1, m2] =>
    obtain ⟨P, hP⟩ : ∃ P, Spec.header20 64 r.hdr.commandId r.hdr.seq0 r.hdr.seq1 r.hdr.seq2 ++ be32 m0 ++ be32 m1 ++
      be32 m2 ++ [r.reportType] = P := ⟨_, rfl⟩
    have hPl : P.length = 33 := by rw [← hP]; simp
    have hc : r.hdr.clamp = r.hdr := sclamp_of_le (by rw [hl]; decide)
    -- the first part of the frame
    have hpre : runW [.seek 20, .str 4 (be32 m0), .str 4 (be32 m1), .str 4 (be32 m2), .byte r.reportType]
        (Spec.header20 64 r.hdr.commandId r.hdr.seq0 r.hdr.seq1 r.hdr.seq2 ++ zeros 44) 20 = some (P ++ zeros 31, 33) := by
      have := runW_layout [.seek 20, .str 4 (be32 m0), .str 4 (be32 m1), .str 4 (be32 m2), .byte r.reportType]
        (Spec.header20 64 r.hdr.commandId r.hdr.seq0 r.hdr.seq1 r.hdr.seq2) 44
        (by simp [AllOk, WOp.Ok]) (by simp [layout, WOp.out])
      simp only [length_header20] at this
      rw [this, ← hP]
      simp [layout, WOp.out, pad_eq_self]
    -- the rest
    have hrest : ∀ u R : Bytes, runW [.free 21 u, .byte r.state, .byte r.errorCode, .free 8 R] (P ++ zeros 31) 33 =
        some (P ++ pad 21 u ++ [r.state, r.errorCode] ++ (R.take 8 ++ (((pad 31 u).drop 23)).drop (R.take 8).length), 64) := by
      intro u R
      obtain ⟨W, hW⟩ : ∃ W, pad 31 u = W := ⟨_, rfl⟩
      have hWl : W.length = 31 := by rw [← hW]; simp
      have a1 : WOp.exec (.free 21 u) (P ++ zeros 31) 33 = some (P ++ W, 54) := by
        rw [WOp.exec, if_pos (by simp [hPl]), overwrite_at 33 hPl.symm]
        have : (P ++ zeros 31).length - 33 = 31 := by simp [hPl]
        rw [this, ← hW, pad, zeros, zeros, List.drop_replicate, List.length_take]
        have : 31 - min 31 u.length = 31 - u.length := by omega
        rw [this]
      have e21 : W.take 21 = pad 21 u := by
        rw [← hW]
        simp only [pad, List.take_append, List.take_take, List.length_take]
        rw [(by omega : min 21 31 = 21)]
        congr 1
        simp [zeros]
        omega
      obtain ⟨x, y, Z, hZ⟩ : ∃ x y Z, W.drop 21 = x :: y :: Z := by
        match h : W.drop 21 with
        | x :: y :: Z => exact ⟨x, y, Z, rfl⟩
        | [] | [_] => have := congrArg List.length h; simp [hWl] at this
      have hZ2 : W.drop 23 = Z := by
        rw [(by rfl : 23 = 21 + 2), ← List.drop_drop, hZ]; rfl
      have hZl : Z.length = 8 := by rw [← hZ2]; simp [hWl]
      have eW : P ++ W = (P ++ pad 21 u) ++ (x :: y :: Z) := by
        rw [← hZ, ← e21, List.append_assoc, List.take_append_drop]
      have hA : (P ++ pad 21 u).length = 54 := by simp [hPl]
      have a2 : WOp.exec (.byte r.state) (P ++ W) 54 = some ((P ++ pad 21 u ++ [r.state]) ++ (y :: Z), 55) := by
        rw [eW, WOp.exec, if_pos (by rw [List.length_append, hA]; simp), overwrite_at 54 hA.symm]
        simp
      have a3 : WOp.exec (.byte r.errorCode) ((P ++ pad 21 u ++ [r.state]) ++ (y :: Z)) 55 =
          some ((P ++ pad 21 u ++ [r.state, r.errorCode]) ++ Z, 56) := by
        rw [WOp.exec, if_pos (by rw [List.length_append, List.length_append, hA]; simp), overwrite_at 55 (by rw [List.length_append, hA]; rfl)]
        simp
      have a4 : WOp.exec (.free 8 R) ((P ++ pad 21 u ++ [r.state, r.errorCode]) ++ Z) 56 =
          some (P ++ pad 21 u ++ [r.state, r.errorCode] ++ (R.take 8 ++ Z.drop (R.take 8).length), 64) := by
        rw [WOp.exec, if_pos (by rw [List.length_append, List.length_append, hA]; simp), overwrite_at 56 (by rw [List.length_append, hA]; rfl)]
        have : ((P ++ pad 21 u ++ [r.state, r.errorCode]) ++ Z).length - 56 = 8 := by
          rw [List.length_append, List.length_append, hA, hZl]; rfl
        rw [this]
      simp only [runW, a1, a2, a3, a4, Option.bind_some, hZ2, hW]
    have henc : r.encode = some (P ++ pad 21 r.userNumber ++ [r.state, r.errorCode] ++
        (r.reserve.take 8 ++ ((pad 31 r.userNumber).drop 23).drop (r.reserve.take 8).length)) := by
      unfold Report.encode encodeWithS
      rw [sheader_encode, hc, hl, hmt, Option.bind_some]
      have : (64 : UInt32).toNat - 20 = 44 := rfl
      rw [this]
      have e : [WOp.seek 20] ++ [m0, m1, m2].map (fun s => WOp.str 4 (be32 s)) ++
          [.byte r.reportType, .free 21 r.userNumber, .byte r.state, .byte r.errorCode, .free 8 r.reserve] =
          [.seek 20, .str 4 (be32 m0), .str 4 (be32 m1), .str 4 (be32 m2), .byte r.reportType] ++
          [.free 21 r.userNumber, .byte r.state, .byte r.errorCode, .free 8 r.reserve] := rfl
      rw [e, runW_append, hpre, Option.bind_some]
      dsimp only
      rw [hrest]
      rfl
    -- the same frame as that of a report whose number fits
    obtain ⟨X, hX⟩ : ∃ X, r.reserve.take 8 ++ ((pad 31 r.userNumber).drop 23).drop (r.reserve.take 8).length = X := ⟨_, rfl⟩
    have hXl : X.length = 8 := by rw [← hX]; simp; omega
    obtain ⟨r', hr'⟩ : ∃ r' : Report, { r with userNumber := r.userNumber.take 21, reserve := X } = r' := ⟨_, rfl⟩
    have hf : Spec.Sgip.ReportFits r' := by
      rw [← hr']
      exact ⟨hm, ⟨by simp; omega, fun h => h0 (List.mem_of_mem_take h)⟩, by rw [hXl]; exact Nat.le_refl _⟩
    have hl' : r'.hdr.packetLength = 64 := by rw [← hr']; exact hl
    obtain ⟨frame, f1, f2, f3, f4⟩ := sgip_report_roundtrip r' spare hf hl'
    have hfr : frame = P ++ pad 21 r.userNumber ++ [r.state, r.errorCode] ++ X := by
      rw [f2, ← hP, ← hr']
      simp only [Spec.Sgip.reportBody, hmt]
      have : pad 8 X = X := pad_eq_self hXl
      have e2 : pad 21 (r.userNumber.take 21) = pad 21 r.userNumber := by
        have e3 : 21 - min 21 r.userNumber.length = 21 - r.userNumber.length := by omega
        rw [pad, pad, List.take_take, List.length_take, e3]
        rfl
      rw [this, e2]
      simp
    refine ⟨frame, by rw [henc, hX, hfr], f3, ?_⟩
    rw [f4, ← hr']
    have : Spec.slot 21 r.userNumber = r.userNumber.take 21 := by
      have : Spec.Fits 21 (r.userNumber.take 21) := ⟨by simp; omega, fun h => h0 (List.mem_of_mem_take h)⟩
      have e := Spec.slot_fits this
      rwa [Spec.slot, List.take_take] at e
    rw [this, hmt]
  | [] | [_] | [_, _] | _ :: _ :: _ :: _ :: _ => rw [hmt] at hm; simp at hm

/-- A number of 30 digits in a report about the message 1-2-3. -/
example : let r : Report := { newReport (List.replicate 30 0x31) [1, 2, 3] 0 0 (4, 5, 6) with reserve := [] }
    r.mtSequence.length = 3 ∧ 0 ∉ r.userNumber ∧ r.hdr.packetLength = 64 ∧ 21 < r.userNumber.length := by decide

/-- A deliver does not isolate over-long numbers: whenever the sender's number has 22 to 42 bytes and the service number
is empty, the rest of the sender's number arrives as the service number. -/
theorem sgip_deliver_overlong_fails (d : Deliver) (spare : Bytes)
    (hfit : Spec.Sgip.DeliverFits { d with userNumber := [] }) (h0 : 0 ∉ d.userNumber)
    (h1 : 21 < d.userNumber.length) (h2 : d.userNumber.length ≤ 42) (hs : d.spNumber = []) :
    ∃ frame r, d.encode = some frame ∧ recv Deliver.decode frame spare = some r ∧
      r.spNumber = d.userNumber.drop 21 ∧ r.spNumber ≠ d.spNumber := by
  obtain ⟨d', hd'⟩ : ∃ d' : Deliver,
    { d with userNumber := d.userNumber.take 21, spNumber := d.userNumber.drop 21 } = d' := ⟨_, rfl⟩
  have htot : d.hdr.packetLength.toNat = 20 + (57 + d.messageContent.length) := by
    have := hfit.total
    rwa [length_deliverBody] at this
  have hf' : Spec.Sgip.DeliverFits d' := by
    rw [← hd']
    refine ⟨⟨by simp; omega, fun h => h0 (List.mem_of_mem_take h)⟩, ⟨by simp; omega, fun h => h0 (List.mem_of_mem_drop h)⟩,
      hfit.reserve, hfit.content, ?_⟩
    rw [length_deliverBody]; exact htot
  have key : ∀ (F : Bytes) (rest : List WOp), 62 ≤ F.length →
      runW (.seek 20 :: .free 21 d.userNumber :: .free 21 [] :: rest) F 20 =
      runW (.seek 20 :: .free 21 (d.userNumber.take 21) :: .free 21 (d.userNumber.drop 21) :: rest) F 20 := by
    intro F rest hFl
    generalize d.userNumber = u at h1 h2
    have ht21 : (u.take 21).length = 21 := by simp; omega
    have hd21 : (u.drop 21).length = u.length - 21 := by simp
    have hol : ∀ a : Bytes, 20 + a.length ≤ F.length → (overwrite F 20 a).length = F.length := by
      intro a ha; simp [overwrite]; omega
    have a1 : WOp.exec (.free 21 u) F 20 = some (overwrite F 20 u, 41) := by
      rw [WOp.exec, if_pos (by omega), List.take_of_length_le (by omega)]
    have a2 : WOp.exec (.free 21 []) (overwrite F 20 u) 41 = some (overwrite F 20 u, 62) := by
      rw [WOp.exec, if_pos (by rw [hol _ (by omega)]; omega)]
      simp [overwrite]
    have a3 : WOp.exec (.free 21 (u.take 21)) F 20 = some (overwrite F 20 (u.take 21), 41) := by
      rw [WOp.exec, if_pos (by omega), List.take_of_length_le (by omega)]
    have a4 : WOp.exec (.free 21 (u.drop 21)) (overwrite F 20 (u.take 21)) 41 = some (overwrite F 20 u, 62) := by
      have hl21 : (overwrite F 20 (u.take 21)).length = F.length := hol _ (by omega)
      rw [WOp.exec, if_pos (by omega), List.take_of_length_le (l := u.drop 21) (by omega)]
      have := overwrite_append (f := F) (a := u.take 21) (b := u.drop 21) (i := 20) (by omega)
      rw [ht21, List.take_append_drop] at this
      rw [this]
    have a0 : WOp.exec (.seek 20) F 20 = some (F, 20) := rfl
    simp only [runW, a0, a1, a2, a3, a4, Option.bind_some]
  have henc : d.encode = d'.encode := by
    rw [← hd']
    unfold Deliver.encode encodeWithS
    simp only [sheader_encode, Option.bind_some]
    rw [sclamp_of_le (by omega)]
    simp only [hs]
    rw [key _ _ (by simp; omega)]
  obtain ⟨frame, f1, _, _, f4⟩ := sgip_deliver_roundtrip d' spare hf'
  have hsp : d'.spNumber = d.userNumber.drop 21 := by rw [← hd']
  refine ⟨frame, _, henc.trans f1, f4, hsp, ?_⟩
  show d'.spNumber ≠ d.spNumber
  rw [hsp, hs]
  intro e
  have := congrArg List.length e
  rw [List.length_drop, List.length_nil] at this
  omega

example : let d : Deliver := { exampleDeliver with userNumber := List.replicate 25 0x31, spNumber := [] }
    Spec.Sgip.DeliverFits { d with userNumber := [] } ∧ 0 ∉ d.userNumber ∧ 21 < d.userNumber.length ∧
    d.userNumber.length ≤ 42 :=
  ⟨⟨by decide, by decide, by decide, by decide, by rw [length_deliverBody]; decide⟩, by decide, by decide, by decide⟩

end Gosms.Sgip
