import Verif.Model.ClientHeartbeat
import Verif.Props.Header

/-!
# C104: the client notices dead connections by heartbeats
-/

namespace Gosms.ClientHeartbeat

/-! ## Specification, in terms of the history -/

/-- The time of the last packet sent or received; `t0` if there was none. -/
def Spec.lastTraffic (t0 : Int) (steps : List Step) : Int :=
  steps.foldl (fun t x => match x with
    | .received now => now
    | .sent now => now
    | _ => t) t0

/-- The heartbeat: 12 bytes, of which the last four are the sequence number; CMPP_ACTIVE_TEST is 8,
SMGP ActiveTest is 4, SGIP has no heartbeat. -/
def Spec.heartbeat (seq : UInt32) : Proto → Option Bytes
  | .cmpp => some ([0, 0, 0, 12, 0, 0, 0, 8] ++ be32 seq)
  | .smgp => some ([0, 0, 0, 12, 0, 0, 0, 4] ++ be32 seq)
  | .sgip => none

/-- More than a minute without traffic. -/
def Spec.idle (t0 : Int) (steps : List Step) (now : Int) : Prop := Spec.lastTraffic t0 steps + 60000000000 < now

instance (t0 : Int) (steps : List Step) (now : Int) : Decidable (Spec.idle t0 steps now) :=
  inferInstanceAs (Decidable (_ < _))

theorem run_snoc (p : Proto) (t0 : Int) (steps : List Step) (x : Step) :
    run p t0 (steps ++ [x]) = step (run p t0 steps) x := by
  simp [run, List.foldl_append]

theorem packet_eq (p : Proto) (seq : UInt32) : packet p seq = Spec.heartbeat seq p := by
  cases p with
  | sgip => rfl
  | cmpp =>
    simp only [packet, Cmpp.activeTestEncode, Cmpp.newActiveTest]
    rw [header_encode, clamp_of_le (show 12 ≤ (12 : UInt32).toNat by decide)]
    have h1 : be32 12 = [0, 0, 0, 12] := by decide
    have h2 : be32 Cmpp.ACTIVE_TEST = [0, 0, 0, 8] := by decide
    have h3 : zeros ((12 : UInt32).toNat - 12) = [] := by decide
    simp only [Gosms.Spec.header12, h1, h2, h3, Spec.heartbeat, List.append_nil, List.append_assoc]
    rfl
  | smgp =>
    simp only [packet, Smgp.activeTestEncode, Smgp.newActiveTest]
    rw [header_encode, clamp_of_le (show 12 ≤ (12 : UInt32).toNat by decide)]
    have h1 : be32 12 = [0, 0, 0, 12] := by decide
    have h2 : be32 Smgp.ACTIVE_TEST = [0, 0, 0, 4] := by decide
    have h3 : zeros ((12 : UInt32).toNat - 12) = [] := by decide
    simp only [Gosms.Spec.header12, h1, h2, h3, Spec.heartbeat, List.append_nil, List.append_assoc]
    rfl

theorem health_fields (s : Sess) (now : Int) (seq : UInt32) (ok : Bool) :
    (healthCheck s now seq ok).1 = s.live ∧ (healthCheck s now seq ok).2.proto = s.proto ∧
    (healthCheck s now seq ok).2.live = s.live ∧ (healthCheck s now seq ok).2.activeTime = s.activeTime := by
  unfold healthCheck activeTest
  split
  · split
    · exact ⟨rfl, rfl, rfl, rfl⟩
    · cases ok <;> exact ⟨rfl, rfl, rfl, rfl⟩
  · exact ⟨rfl, rfl, rfl, rfl⟩

theorem run_fields (p : Proto) (t0 : Int) (steps : List Step) :
    (run p t0 steps).proto = p ∧ ((run p t0 steps).live = true ↔ .close ∉ steps) ∧
    (run p t0 steps).activeTime = Spec.lastTraffic t0 steps := by
  induction steps using snoc_induction with
  | nil => simp [run, Spec.lastTraffic]
  | snoc steps x ih =>
    obtain ⟨h1, h2, h3⟩ := ih
    rw [run_snoc]
    have e : Spec.lastTraffic t0 (steps ++ [x]) = match x with
        | .received now => now
        | .sent now => now
        | _ => Spec.lastTraffic t0 steps := by
      simp only [Spec.lastTraffic, List.foldl_append, List.foldl_cons, List.foldl_nil]
    rw [e]
    cases x with
    | check now seq ok =>
      obtain ⟨_, f1, f2, f3⟩ := health_fields (run p t0 steps) now seq ok
      simp only [step]
      rw [f1, f2, f3]
      refine ⟨h1, ?_, h3⟩
      rw [h2]
      simp
    | received now => refine ⟨h1, ?_, rfl⟩; simp only [step]; rw [h2]; simp
    | sent now => refine ⟨h1, ?_, rfl⟩; simp only [step]; rw [h2]; simp
    | close => refine ⟨h1, ?_, h3⟩; simp [step]

/-- C104, in every history: a check writes exactly one heartbeat, the protocol's, if the session is not closed and
more than a minute went by without traffic; in all other cases, and for SGIP, it writes nothing. -/
theorem heartbeat_exact (p : Proto) (t0 : Int) (steps : List Step) (now : Int) (seq : UInt32) (ok : Bool) :
    (run p t0 (steps ++ [.check now seq ok])).wire = (run p t0 steps).wire ++
      (if .close ∉ steps ∧ Spec.idle t0 steps now ∧ ok = true then (Spec.heartbeat seq p).toList else []) := by
  obtain ⟨h1, h2, h3⟩ := run_fields p t0 steps
  rw [run_snoc]
  simp only [step, healthCheck]
  by_cases hc : (run p t0 steps).live = true ∧ Spec.idle t0 steps now
  · have hi : (run p t0 steps).activeTime + minute < now := by rw [h3]; exact hc.2
    rw [if_pos (by simp [hc.1, hi])]
    simp only [activeTest, h1, packet_eq]
    cases hp : Spec.heartbeat seq p with
    | none => simp
    | some b =>
      cases ok with
      | false => simp
      | true => simp [h2.1 hc.1, hc.2]
  · rw [if_neg, if_neg]
    · simp
    · rintro ⟨h4, h5, _⟩; exact hc ⟨h2.2 h4, h5⟩
    · intro h
      simp only [Bool.and_eq_true, decide_eq_true_eq] at h
      rw [h3] at h
      exact hc h

/-- Other steps write no heartbeats. -/
theorem heartbeat_only_checks (p : Proto) (t0 : Int) (steps : List Step) (x : Step)
    (h : ∀ now seq ok, x ≠ .check now seq ok) : (run p t0 (steps ++ [x])).wire = (run p t0 steps).wire := by
  rw [run_snoc]
  cases x with
  | check now seq ok => exact absurd rfl (h now seq ok)
  | received now => rfl
  | sent now => rfl
  | close => rfl

/-- A session that is closed is never found healthy, and one that is not is never found unhealthy. -/
theorem health_exact (p : Proto) (t0 : Int) (steps : List Step) (now : Int) (seq : UInt32) (ok : Bool) :
    (healthCheck (run p t0 steps) now seq ok).1 = true ↔ .close ∉ steps := by
  rw [(health_fields _ _ _ _).1]
  exact (run_fields p t0 steps).2.1

/-- A CMPP session used at time 0 and checked 61 and 62 seconds later. -/
example : (run .cmpp 0 [.sent 0, .check 61000000000 7 true, .check 62000000000 8 true]).wire =
    [[0, 0, 0, 12, 0, 0, 0, 8, 0, 0, 0, 7], [0, 0, 0, 12, 0, 0, 0, 8, 0, 0, 0, 8]] := by decide

/-- C104 fails: whatever the protocol, however long nothing came from the carrier and however many heartbeats could not
even be written, the session is found healthy at every check (and so stays in the pool and is given to senders)
until it is closed for another reason. -/
theorem dead_connection_noticed_fails (p : Proto) (t0 : Int) (checks : List (Int × UInt32)) (now : Int) (seq : UInt32) :
    (healthCheck (run p t0 (checks.map fun c => .check c.1 c.2 false)) now seq false).1 = true := by
  rw [health_exact]
  intro h
  obtain ⟨c, _, hc⟩ := List.mem_map.1 h
  cases hc

/-- Nor does the lack of an answer: the unanswered heartbeats go on, one at every check, without end and without any
distance between them. -/
theorem heartbeats_paced_fails (p : Proto) (hp : p ≠ .sgip) (t0 : Int) (checks : List (Int × UInt32))
    (h : ∀ c ∈ checks, t0 + 60000000000 < c.1) :
    (run p t0 (checks.map fun c => .check c.1 c.2 true)).wire.map some =
      checks.map fun c => Spec.heartbeat c.2 p := by
  induction checks using snoc_induction with
  | nil => rfl
  | snoc checks c ih =>
    rw [List.map_append, List.map_append, List.map_cons, List.map_nil, heartbeat_exact, List.map_append,
      ih fun d hd => h d (by simp [hd])]
    have h1 : Step.close ∉ checks.map fun c => Step.check c.1 c.2 true := by
      intro h
      obtain ⟨c, _, hc⟩ := List.mem_map.1 h
      cases hc
    have h2 : Spec.lastTraffic t0 (checks.map fun c => .check c.1 c.2 true) = t0 := by
      clear h ih h1
      induction checks using snoc_induction with
      | nil => rfl
      | snoc checks d ih =>
        simp only [Spec.lastTraffic, List.map_append, List.map_cons, List.map_nil, List.foldl_append, List.foldl_cons,
          List.foldl_nil] at ih ⊢
        exact ih
    rw [if_pos ⟨h1, by unfold Spec.idle; rw [h2]; exact h c (by simp), rfl⟩]
    cases p with
    | sgip => exact absurd rfl hp
    | cmpp => simp [Spec.heartbeat]
    | smgp => simp [Spec.heartbeat]

/-- SGIP sessions are never tested. -/
theorem sgip_tested_fails (t0 : Int) (steps : List Step) : (run .sgip t0 steps).wire = [] := by
  induction steps using snoc_induction with
  | nil => rfl
  | snoc steps x ih =>
    cases x with
    | check now seq ok => rw [heartbeat_exact, ih]; split <;> rfl
    | received now => rw [heartbeat_only_checks _ _ _ _ (by intros; exact Step.noConfusion), ih]
    | sent now => rw [heartbeat_only_checks _ _ _ _ (by intros; exact Step.noConfusion), ih]
    | close => rw [heartbeat_only_checks _ _ _ _ (by intros; exact Step.noConfusion), ih]

end Gosms.ClientHeartbeat
