import Verif.Model.Sequences

namespace Gosms

/-! ## C11: SGIP sequence numbers -/

theorem u32_and_mask (x : UInt32) : x &&& 0xffffffff = x := by
  have : (0xffffffff : UInt32) = -1 := by decide
  rw [this, UInt32.and_neg_one]

theorem sgip_next (s : SgipSeq) (c : Clock) :
    (s.nextVal c).1.1 = s.node ∧ (s.nextVal c).1.2.2 = s.sequence + 31 ∧
    (s.nextVal c).2.node = s.node ∧ (s.nextVal c).2.sequence = s.sequence + 31 := by
  simp only [SgipSeq.nextVal, u32_and_mask, and_self]

theorem u32_add31 (x : UInt32) : (x + 31).toNat = (x.toNat + 31) % 2 ^ 32 := UInt32.toNat_add x 31

theorem sgip_run_getElem (cs : List Clock) : ∀ (s : SgipSeq),
    ∃ hl : (s.run cs).length = cs.length, ∀ i (hi : i < cs.length),
      ((s.run cs)[i]'(by omega)).2.2.toNat = (s.sequence.toNat + 31 * (i + 1)) % 2 ^ 32 ∧
      ((s.run cs)[i]'(by omega)).1 = s.node := by
  induction cs with
  | nil => intro s; exact ⟨rfl, fun i hi => by simp at hi⟩
  | cons c cs ih =>
    intro s
    obtain ⟨n1, n2, n3, n4⟩ := sgip_next s c
    generalize hn : s.nextVal c = p at n1 n2 n3 n4
    have hr : s.run (c :: cs) = p.1 :: p.2.run cs := by rw [SgipSeq.run, hn]
    obtain ⟨hl, hrec⟩ := ih p.2
    refine ⟨by rw [hr, List.length_cons, hl, List.length_cons], ?_⟩
    intro i hi
    simp only [hr]
    cases i with
    | zero =>
      simp only [List.getElem_cons_zero]
      rw [n1, n2, u32_add31]
      exact ⟨by omega, rfl⟩
    | succ i =>
      obtain ⟨r1, r2⟩ := hrec i (by simpa using hi)
      simp only [List.getElem_cons_succ]
      rw [r2, n3, r1, n4, u32_add31]
      refine ⟨?_, rfl⟩
      omega

/-- **C11.** In any history of at most 2^32 calls of one node, at whatever times, all sequence numbers
are different — already in their third word. -/
theorem sgip_sequence_unique (node worker : UInt32) (cs : List Clock) (hlen : cs.length ≤ 2 ^ 32) :
    (((newSgipSequencer node worker).run cs).map (·.2.2)).Nodup ∧
      ∀ r ∈ (newSgipSequencer node worker).run cs, r.1 = node := by
  obtain ⟨hl, hget⟩ := sgip_run_getElem cs (newSgipSequencer node worker)
  constructor
  · rw [List.nodup_iff_pairwise_ne, List.pairwise_map, List.pairwise_iff_getElem]
    intro i j hi hj hij heq
    have h1 := (hget i (by omega)).1
    have h2 := (hget j (by omega)).1
    rw [heq, h2] at h1
    omega
  · intro r hr
    obtain ⟨i, hi, rfl⟩ := List.getElem_of_mem hr
    exact (hget i (by omega)).2

/-- **C11.** Two workers (as long as neither counter has wrapped around 2^32) never produce the same
third word if their numbers differ modulo 31. -/
theorem sgip_workers_disjoint (node1 node2 w1 w2 : UInt32) (cs1 cs2 : List Clock)
    (hne : w1.toNat % 31 ≠ w2.toNat % 31)
    (hb1 : w1.toNat + 31 * cs1.length < 2 ^ 32) (hb2 : w2.toNat + 31 * cs2.length < 2 ^ 32) :
    ∀ a ∈ (newSgipSequencer node1 w1).run cs1, ∀ b ∈ (newSgipSequencer node2 w2).run cs2,
      a.2.2 ≠ b.2.2 := by
  intro a ha b hb heq
  obtain ⟨hl1, hget1⟩ := sgip_run_getElem cs1 (newSgipSequencer node1 w1)
  obtain ⟨hl2, hget2⟩ := sgip_run_getElem cs2 (newSgipSequencer node2 w2)
  obtain ⟨i, hi, rfl⟩ := List.getElem_of_mem ha
  obtain ⟨j, hj, rfl⟩ := List.getElem_of_mem hb
  have h1 := (hget1 i (by omega)).1
  have h2 := (hget2 j (by omega)).1
  rw [heq, h2] at h1
  simp only [newSgipSequencer] at h1
  rw [Nat.mod_eq_of_lt (by omega), Nat.mod_eq_of_lt (by omega)] at h1
  omega

/-- The documented worker range (data center 0-3, worker 0-7, combined as `8*dc + worker`, 0-31)
contains one colliding pair: 0 and 31. -/
theorem sgip_worker_0_31_collide_fails (node : UInt32) (c : Clock) :
    ∃ cs1 cs2 : List Clock, cs1.length = 2 ∧ cs2.length = 1 ∧
      (((newSgipSequencer node 0).run cs1).map (·.2.2)).getLast? =
      (((newSgipSequencer node 31).run cs2).map (·.2.2)).getLast? := by
  refine ⟨[c, c], [c], rfl, rfl, ?_⟩
  simp only [SgipSeq.run, List.map_cons, List.map_nil, SgipSeq.nextVal, newSgipSequencer]
  decide

/-- The second word is the decimal time stamp MMDDhhmmss. -/
theorem sgip_timestamp (s : SgipSeq) (c : Clock) (h : c.Valid) :
    (s.nextVal c).1.2.1.toNat = c.month * 100000000 + c.day * 1000000 + c.hour * 10000
      + c.minute * 100 + c.second := by
  obtain ⟨_, h1, h2, h3, h4, h5⟩ := h
  simp only [SgipSeq.nextVal, UInt32.toNat_add, UInt32.toNat_ofNat']
  omega

example : (SgipSeq.run (newSgipSequencer 300000 5) [⟨23, 1, 2, 3, 4, 5⟩, ⟨23, 1, 2, 3, 4, 5⟩]) =
    [(300000, 102030405, 36), (300000, 102030405, 67)] := by decide


end Gosms
