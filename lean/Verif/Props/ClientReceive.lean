import Verif.Model.ClientReceive
import Verif.Spec.Wire
import Verif.Lemmas.Cmpp

/-!
# C62: client receive framing
-/

namespace Gosms.ClientReceive

namespace Spec

/-- The bytes of a packet on the wire. -/
def wire (p : Packet) : Bytes := Gosms.Spec.header12 (UInt32.ofNat (12 + p.body.length)) p.cmd p.seq ++ p.body

/-- Header and body of a packet, without the empty body. -/
def pieces (p : Packet) : List Bytes :=
  Gosms.Spec.header12 (UInt32.ofNat (12 + p.body.length)) p.cmd p.seq :: (if p.body = [] then [] else [p.body])

/-- Not longer than 5120 bytes. -/
def Fits (p : Packet) : Prop := 12 + p.body.length ≤ 5120

end Spec

theorem pieces_flatten (p : Packet) : (Spec.pieces p).flatten = Spec.wire p := by
  unfold Spec.pieces Spec.wire
  split
  · rename_i h; simp [h]
  · simp

/-- Reading exactly the next piece. -/
theorem read_piece (groups : List (List Bytes)) (hg : ∀ g ∈ groups, g ≠ []) (x : Bytes) (xs : List Bytes)
    (h : groups.flatten = x :: xs) (hx : ∀ y ∈ xs, y ≠ []) :
    ∃ groups' : List (List Bytes), read x.length (groups.map List.flatten) = some (x, groups'.map List.flatten) ∧
      groups'.flatten = xs ∧ ∀ g ∈ groups', g ≠ [] := by
  cases groups with
  | nil => cases h
  | cons g gs =>
    cases g with
    | nil => exact absurd rfl (hg [] (by simp))
    | cons a g =>
      simp only [List.flatten_cons, List.cons_append, List.cons.injEq] at h
      obtain ⟨h0, h⟩ := h
      subst h0
      simp only [List.map_cons, List.flatten_cons, read]
      cases g with
      | nil =>
        refine ⟨gs, ?_, by simpa using h, fun g' hg' => hg g' (by simp [hg'])⟩
        rw [if_pos (by simp)]
        simp
      | cons b g =>
        have hb : b ≠ [] := hx b (by rw [← h]; simp)
        have hlen : 0 < b.length := List.length_pos_iff.2 hb
        refine ⟨(b :: g) :: gs, ?_, by simpa using h, ?_⟩
        · rw [if_neg (by simp; omega)]
          simp
        · intro g' hg'
          rcases List.mem_cons.1 hg' with rfl | hg'
          · simp
          · exact hg g' (by simp [hg'])

theorem head_facts (p : Packet) (hp : Spec.Fits p) :
    let h := Gosms.Spec.header12 (UInt32.ofNat (12 + p.body.length)) p.cmd p.seq
    h.length = 12 ∧ unpackHead h = (UInt32.ofNat (12 + p.body.length), p.cmd, p.seq) ∧
    (UInt32.ofNat (12 + p.body.length)).toNat = 12 + p.body.length := by
  unfold Spec.Fits at hp
  refine ⟨by simp [Gosms.Spec.header12], ?_, ?_⟩
  · have := unpackHead_header12 (UInt32.ofNat (12 + p.body.length)) p.cmd p.seq []
    rwa [List.append_nil] at this
  · rw [UInt32.toNat_ofNat']; omega

theorem turn_packet (p : Packet) (hp : Spec.Fits p) (groups : List (List Bytes)) (hg : ∀ g ∈ groups, g ≠ [])
    (xs : List Bytes) (h : groups.flatten = Spec.pieces p ++ xs) (hx : ∀ y ∈ xs, y ≠ []) :
    ∃ groups' : List (List Bytes), turn (groups.map List.flatten) = .inr (p, groups'.map List.flatten) ∧
      groups'.flatten = xs ∧ ∀ g ∈ groups', g ≠ [] := by
  obtain ⟨h12, hu, hn⟩ := head_facts p hp
  unfold Spec.Fits at hp
  unfold Spec.pieces at h
  generalize hH : Gosms.Spec.header12 (UInt32.ofNat (12 + p.body.length)) p.cmd p.seq = H at *
  obtain ⟨cmd, seq, body⟩ := p
  simp only at *
  have hrange : ¬ (UInt32.ofNat (12 + body.length) > 5120 ∨ UInt32.ofNat (12 + body.length) < 12) := by
    intro hh
    rcases hh with hh | hh
    · have := UInt32.lt_iff_toNat_lt.1 hh
      rw [hn] at this
      have e : (5120 : UInt32).toNat = 5120 := rfl
      omega
    · have := UInt32.lt_iff_toNat_lt.1 hh
      rw [hn] at this
      have e : (12 : UInt32).toNat = 12 := rfl
      omega
  by_cases hb : body = []
  · rw [if_pos hb] at h
    obtain ⟨g1, h1, h2, h3⟩ := read_piece groups hg H xs h hx
    rw [h12] at h1
    refine ⟨g1, ?_, h2, h3⟩
    unfold turn
    rw [h1]
    simp only [h12, ne_eq, not_true, if_false, hu]
    rw [if_neg hrange, hn, hb]
    rfl
  · rw [if_neg hb] at h
    have hlen : 0 < body.length := List.length_pos_iff.2 hb
    obtain ⟨g1, h1, h2, h3⟩ := read_piece groups hg H ([body] ++ xs) h
      (by intro y hy; simp only [List.singleton_append, List.mem_cons] at hy
          rcases hy with rfl | hy
          · exact hb
          · exact hx y hy)
    rw [h12] at h1
    obtain ⟨g2, h4, h5, h6⟩ := read_piece g1 h3 body xs h2 hx
    refine ⟨g2, ?_, h5, h6⟩
    unfold turn
    rw [h1]
    simp only [h12, ne_eq, not_true, if_false, hu]
    rw [if_neg hrange, hn, if_pos (by omega)]
    have e : 12 + body.length - 12 = body.length := by omega
    rw [e, h4]
    simp

theorem receive_packets (ps : List Packet) (hp : ∀ p ∈ ps, Spec.Fits p) (groups : List (List Bytes))
    (hg : ∀ g ∈ groups, g ≠ []) (xs : List Bytes) (h : groups.flatten = ps.flatMap Spec.pieces ++ xs)
    (hx : ∀ y ∈ xs, y ≠ []) (fuel : Nat) :
    ∃ groups' : List (List Bytes), receive (ps.length + fuel) (groups.map List.flatten) =
        (ps ++ (receive fuel (groups'.map List.flatten)).1, (receive fuel (groups'.map List.flatten)).2) ∧
      groups'.flatten = xs ∧ ∀ g ∈ groups', g ≠ [] := by
  induction ps generalizing groups with
  | nil => exact ⟨groups, by simp, by simpa using h, hg⟩
  | cons p ps ih =>
    rw [List.flatMap_cons, List.append_assoc] at h
    obtain ⟨g1, h1, h2, h3⟩ := turn_packet p (hp p (by simp)) groups hg _ h (by
      intro y hy
      rcases List.mem_append.1 hy with hy | hy
      · obtain ⟨q, _, hq⟩ := List.mem_flatMap.1 hy
        unfold Spec.pieces at hq
        rcases List.mem_cons.1 hq with rfl | hq
        · intro he
          have := congrArg List.length he
          simp [Gosms.Spec.header12] at this
        · split at hq
          · cases hq
          · rename_i hb; rw [List.mem_singleton] at hq; rw [hq]; exact hb
      · exact hx y hy)
    obtain ⟨g2, h4, h5, h6⟩ := ih (fun q hq => hp q (by simp [hq])) g1 h3 h2
    refine ⟨g2, ?_, h5, h6⟩
    have e : (p :: ps).length + fuel = (ps.length + fuel) + 1 := by simp; omega
    rw [e]
    simp only [receive]
    rw [h1]
    simp only
    rw [h4]
    rfl

/-- C62 when no header and no body is torn apart: the stream of any packets `ps`, delivered in chunks of whole
headers and bodies (any grouping of them), is processed as exactly these packets, in order; the receiver ends at
the end of the stream. -/
theorem receive_partial (ps : List Packet) (hp : ∀ p ∈ ps, Spec.Fits p) (groups : List (List Bytes))
    (hg : ∀ g ∈ groups, g ≠ []) (h : groups.flatten = ps.flatMap Spec.pieces) (fuel : Nat) (hf : ps.length < fuel) :
    receive fuel (groups.map List.flatten) = (ps, some .head) := by
  obtain ⟨k, rfl⟩ : ∃ k, fuel = ps.length + (k + 1) := ⟨fuel - ps.length - 1, by omega⟩
  obtain ⟨g, h1, h2, h3⟩ := receive_packets ps hp groups hg [] (by simpa using h) (by simp) (k + 1)
  have : g = [] := by
    cases g with
    | nil => rfl
    | cons a g => exact absurd (List.append_eq_nil_iff.1 (List.flatten_cons ▸ h2)).1 (h3 a (by simp))
  rw [h1, this]
  simp [receive, turn, read]

/-- In particular when all bytes are available at once. -/
theorem receive_whole_partial (ps : List Packet) (hp : ∀ p ∈ ps, Spec.Fits p) (hne : ps ≠ []) (fuel : Nat) (hf : ps.length < fuel) :
    receive fuel [(ps.map Spec.wire).flatten] = (ps, some .head) := by
  have e : (ps.map Spec.wire).flatten = (ps.flatMap Spec.pieces).flatten := by
    clear hp hne hf
    induction ps with
    | nil => rfl
    | cons p ps ih => rw [List.map_cons, List.flatten_cons, List.flatMap_cons, List.flatten_append, ih, pieces_flatten]
  have := receive_partial ps hp [ps.flatMap Spec.pieces] (by
    intro g hg
    rw [List.mem_singleton] at hg
    rw [hg]
    cases ps with
    | nil => exact absurd rfl hne
    | cons p ps => simp [Spec.pieces]) (by simp) fuel hf
  rw [e]
  exact this

/-- C62, lengths: after any packets, a header that declares a length outside 12..5120 ends the receiver, whatever
follows. -/
theorem receive_bad_length (ps : List Packet) (hp : ∀ p ∈ ps, Spec.Fits p) (len cmd seq : UInt32) (more : List Bytes)
    (hlen : len.toNat < 12 ∨ 5120 < len.toNat) (hmore : ∀ y ∈ more, y ≠ []) (groups : List (List Bytes))
    (hg : ∀ g ∈ groups, g ≠ [])
    (h : groups.flatten = ps.flatMap Spec.pieces ++ Gosms.Spec.header12 len cmd seq :: more) (fuel : Nat) (hf : ps.length < fuel) :
    receive fuel (groups.map List.flatten) = (ps, some .length) := by
  obtain ⟨k, rfl⟩ : ∃ k, fuel = ps.length + (k + 1) := ⟨fuel - ps.length - 1, by omega⟩
  have hl : (Gosms.Spec.header12 len cmd seq).length = 12 := by simp [Gosms.Spec.header12]
  obtain ⟨g, h1, h2, h3⟩ := receive_packets ps hp groups hg _ h (by
    intro y hy
    rcases List.mem_cons.1 hy with rfl | hy
    · intro he; rw [he] at hl; cases hl
    · exact hmore y hy) (k + 1)
  obtain ⟨g1, h4, h5, h6⟩ := read_piece g h3 _ _ h2 hmore
  rw [hl] at h4
  have hu := unpackHead_header12 len cmd seq []
  rw [List.append_nil] at hu
  have hbad : len > 5120 ∨ len < 12 := by
    rcases hlen with hh | hh
    · right; exact UInt32.lt_iff_toNat_lt.2 hh
    · left; exact UInt32.lt_iff_toNat_lt.2 hh
  rw [h1]
  simp only [receive, turn, h4, hl, ne_eq, not_true, if_false, hu, if_pos hbad]
  simp

/-- C62 fails: after any packets, each delivered in one chunk, take any further packet and any place inside its
header or inside its body. If the stream is cut there, the receiver closes the session without processing the
packet, whatever follows. -/
theorem receive_split_fails (ps : List Packet) (hp : ∀ p ∈ ps, Spec.Fits p) (p : Packet) (hp1 : Spec.Fits p) (k : Nat)
    (h0 : 0 < k) (h1 : k < (Spec.wire p).length) (h12 : k ≠ 12) (more : List Bytes) (fuel : Nat) (hf : ps.length < fuel) :
    receive fuel (ps.map Spec.wire ++ (Spec.wire p).take k :: (Spec.wire p).drop k :: more) =
      (ps, some (if k < 12 then .head else .body)) := by
  induction ps generalizing fuel with
  | nil =>
    obtain ⟨n, rfl⟩ : ∃ n, fuel = n + 1 := ⟨fuel - 1, by simp at hf; omega⟩
    obtain ⟨hl, hu, hn⟩ := head_facts p hp1
    have hwl : (Spec.wire p).length = 12 + p.body.length := by unfold Spec.wire; rw [List.length_append, hl]
    simp only [List.map_nil, List.nil_append]
    by_cases hk : k < 12
    · have e : ((Spec.wire p).take k).length = k := by rw [List.length_take]; omega
      simp only [receive, turn, read]
      rw [if_pos (by omega)]
      simp only
      rw [if_pos (by omega), if_pos hk]
    · have e : ((Spec.wire p).take k).length = k := by rw [List.length_take]; omega
      simp only [receive, turn, read]
      rw [if_neg (by omega)]
      simp only
      have e1 : ((Spec.wire p).take k).take 12 = Gosms.Spec.header12 (UInt32.ofNat (12 + p.body.length)) p.cmd p.seq := by
        rw [List.take_take, Nat.min_eq_left (by omega)]
        unfold Spec.wire
        rw [List.take_append_of_le_length (by omega), List.take_of_length_le (by omega)]
      rw [e1, if_neg (fun h => h hl), hu]
      simp only [hn]
      have hrange : ¬ (UInt32.ofNat (12 + p.body.length) > 5120 ∨ UInt32.ofNat (12 + p.body.length) < 12) := by
        unfold Spec.Fits at hp1
        intro hh
        rcases hh with hh | hh
        · have := UInt32.lt_iff_toNat_lt.1 hh
          rw [hn] at this
          have e : (5120 : UInt32).toNat = 5120 := rfl
          omega
        · have := UInt32.lt_iff_toNat_lt.1 hh
          rw [hn] at this
          have e : (12 : UInt32).toNat = 12 := rfl
          omega
      rw [if_neg hrange, if_pos (by omega)]
      have e2 : (((Spec.wire p).take k).drop 12).length = k - 12 := by rw [List.length_drop, e]
      rw [if_pos (by omega)]
      simp only
      rw [if_pos (by omega), if_neg hk]
  | cons q ps ih =>
    obtain ⟨n, rfl⟩ : ∃ n, fuel = n + 1 := ⟨fuel - 1, by simp at hf; omega⟩
    have ih' := ih (fun x hx => hp x (by simp [hx])) n (by simp at hf; omega)
    obtain ⟨hl, hu, hn⟩ := head_facts q (hp q (by simp))
    -- one turn processes `q`
    have ht : ∀ rest, turn (Spec.wire q :: rest) = .inr (q, rest) := by
      intro rest
      have hq := hp q (by simp)
      have hwl : (Spec.wire q).length = 12 + q.body.length := by unfold Spec.wire; rw [List.length_append, hl]
      have hrange : ¬ (UInt32.ofNat (12 + q.body.length) > 5120 ∨ UInt32.ofNat (12 + q.body.length) < 12) := by
        unfold Spec.Fits at hq
        intro hh
        rcases hh with hh | hh
        · have := UInt32.lt_iff_toNat_lt.1 hh
          rw [hn] at this
          have e : (5120 : UInt32).toNat = 5120 := rfl
          omega
        · have := UInt32.lt_iff_toNat_lt.1 hh
          rw [hn] at this
          have e : (12 : UInt32).toNat = 12 := rfl
          omega
      by_cases hb : q.body = []
      · have e : Spec.wire q = Gosms.Spec.header12 (UInt32.ofNat (12 + q.body.length)) q.cmd q.seq := by
          unfold Spec.wire; rw [hb, List.append_nil]
        simp only [turn, read]
        rw [if_pos (by rw [hwl, hb]; simp)]
        simp only
        rw [e, if_neg (fun h => h hl), hu]
        simp only [hn]
        rw [if_neg hrange, hb]
        obtain ⟨c, s, b⟩ := q
        simp only at hb
        simp [hb]
      · have hlen : 0 < q.body.length := List.length_pos_iff.2 hb
        simp only [turn, read]
        rw [if_neg (by omega)]
        simp only
        have e1 : (Spec.wire q).take 12 = Gosms.Spec.header12 (UInt32.ofNat (12 + q.body.length)) q.cmd q.seq := by
          unfold Spec.wire
          rw [List.take_append_of_le_length (by omega), List.take_of_length_le (by omega)]
        have e2 : (Spec.wire q).drop 12 = q.body := by
          unfold Spec.wire
          rw [List.drop_append_of_le_length (by omega), List.drop_eq_nil_of_le (by omega), List.nil_append]
        rw [e1, if_neg (fun h => h hl), hu]
        simp only [hn, e2]
        rw [if_neg hrange, if_pos (by omega), if_pos (by omega)]
        simp only
        rw [if_neg (by omega)]
    rw [List.map_cons, List.cons_append]
    simp only [receive]
    rw [ht]
    simp only
    rw [ih']

/-- The receiver always ends with the stream: it needs at most as many turns as there are bytes. -/
theorem receive_terminates (chunks : List Bytes) (fuel : Nat) (hf : chunks.flatten.length < fuel) :
    (receive fuel chunks).2.isSome := by
  have hread : ∀ n chunks b rest, read n chunks = some (b, rest) →
      chunks.flatten.length = b.length + rest.flatten.length := by
    intro n chunks b rest h
    cases chunks with
    | nil => cases h
    | cons c cs =>
      simp only [read] at h
      split at h
      · injection h with h; injection h with h1 h2; subst h1; subst h2; simp
      · injection h with h; injection h with h1 h2; subst h1; subst h2
        simp only [List.flatten_cons, List.length_append, List.length_take, List.length_drop]
        omega
  have hturn : ∀ chunks p rest, turn chunks = .inr (p, rest) → rest.flatten.length + 12 ≤ chunks.flatten.length := by
    intro chunks p rest h
    unfold turn at h
    cases h1 : read 12 chunks with
    | none => rw [h1] at h; cases h
    | some v =>
      obtain ⟨head, r1⟩ := v
      have e1 := hread _ _ _ _ h1
      rw [h1] at h
      simp only at h
      by_cases hl : head.length = 12
      · rw [if_neg (fun hh => hh hl)] at h
        split at h
        · cases h
        · split at h
          · cases h2 : read ((unpackHead head).fst.toNat - 12) r1 with
            | none => rw [h2] at h; cases h
            | some w =>
              obtain ⟨body, r2⟩ := w
              have e2 := hread _ _ _ _ h2
              rw [h2] at h
              simp only at h
              split at h
              · cases h
              · injection h with h; injection h with h3 h4; subst h4; omega
          · injection h with h; injection h with h3 h4; subst h4; omega
      · rw [if_pos hl] at h; cases h
  induction fuel generalizing chunks with
  | zero => omega
  | succ n ih =>
    simp only [receive]
    cases ht : turn chunks with
    | inl e => rfl
    | inr v =>
      obtain ⟨p, rest⟩ := v
      have := hturn chunks p rest ht
      exact ih rest (by omega)

example : receive 5 [Spec.wire ⟨4, 1, [1, 2, 3]⟩ ++ Spec.wire ⟨8, 2, []⟩] = ([⟨4, 1, [1, 2, 3]⟩, ⟨8, 2, []⟩], some .head) ∧
    receive 5 [(Spec.wire ⟨4, 1, [1, 2, 3]⟩).take 13, (Spec.wire ⟨4, 1, [1, 2, 3]⟩).drop 13] = ([], some .body) ∧
    receive 5 [be32 5121 ++ be32 4 ++ be32 1] = ([], some .length) := by decide

end Gosms.ClientReceive

/-! ## Exactly which deliveries are received -/

namespace Gosms.ClientReceive

namespace Spec

/-- No header and no body is torn apart: the reads return the bytes in `chunks`, each made of whole headers and bodies. -/
def Whole (ps : List Packet) (chunks : List Bytes) : Prop :=
  ∃ groups : List (List Bytes), (∀ g ∈ groups, g ≠ []) ∧ groups.flatten = ps.flatMap pieces ∧ chunks = groups.map List.flatten

end Spec

theorem read_inv {n : Nat} (hn : 0 < n) {cs : List Bytes} (hc : ∀ c ∈ cs, c ≠ []) {b : Bytes} {rest : List Bytes} (h : read n cs = some (b, rest)) :
    b ≠ [] ∧ b.length ≤ n ∧ cs.flatten = b ++ rest.flatten ∧ (∀ c ∈ rest, c ≠ []) ∧
    ∀ groups : List (List Bytes), (∀ g ∈ groups, g ≠ []) → rest = groups.map List.flatten →
      ∃ groups' : List (List Bytes), (∀ g ∈ groups', g ≠ []) ∧ cs = groups'.map List.flatten ∧ groups'.flatten = b :: groups.flatten := by
  cases cs with
  | nil => cases h
  | cons c cs =>
    have hcne := hc c (by simp)
    have hpos : 0 < c.length := List.length_pos_iff.2 hcne
    simp only [read] at h
    split at h
    · rename_i hle
      injection h with h
      injection h with h1 h2
      subst h1 h2
      refine ⟨hcne, hle, by simp, fun x hx => hc x (by simp [hx]), fun groups hg hr => ⟨[c] :: groups, ?_, ?_, ?_⟩⟩
      · intro g hgm
        rcases List.mem_cons.1 hgm with rfl | hgm
        · simp
        · exact hg g hgm
      · rw [List.map_cons, ← hr]; simp
      · simp
    · rename_i hgt
      injection h with h
      injection h with h1 h2
      subst h1 h2
      refine ⟨?_, by simp; omega, ?_, ?_, ?_⟩
      · apply List.length_pos_iff.1; rw [List.length_take]; omega
      · rw [List.flatten_cons, List.flatten_cons, ← List.append_assoc, List.take_append_drop]
      · intro x hx
        rcases List.mem_cons.1 hx with rfl | hx
        · apply List.length_pos_iff.1; rw [List.length_drop]; omega
        · exact hc x (by simp [hx])
      · intro groups hg hr
        cases groups with
        | nil => cases hr
        | cons g gs =>
          rw [List.map_cons, List.cons.injEq] at hr
          refine ⟨(c.take n :: g) :: gs, ?_, ?_, by simp⟩
          · intro g' hg'
            rcases List.mem_cons.1 hg' with rfl | hg'
            · simp
            · exact hg g' (by simp [hg'])
          · rw [List.map_cons, List.flatten_cons, ← hr.1, ← hr.2, List.take_append_drop]

theorem turn_inv {q : Packet} (hq : Spec.Fits q) {cs : List Bytes} (hc : ∀ c ∈ cs, c ≠ []) {tl : Bytes} (h : cs.flatten = Spec.wire q ++ tl) :
    (∃ e, turn cs = .inl e ∧ (e = .head ∨ e = .body)) ∨
    ∃ rest, turn cs = .inr (q, rest) ∧ rest.flatten = tl ∧ (∀ c ∈ rest, c ≠ []) ∧
      ∀ groups : List (List Bytes), (∀ g ∈ groups, g ≠ []) → rest = groups.map List.flatten →
        ∃ groups' : List (List Bytes), (∀ g ∈ groups', g ≠ []) ∧ cs = groups'.map List.flatten ∧
          groups'.flatten = Spec.pieces q ++ groups.flatten := by
  obtain ⟨h12, hu, hn⟩ := head_facts q hq
  have hrange : ¬ (UInt32.ofNat (12 + q.body.length) > 5120 ∨ UInt32.ofNat (12 + q.body.length) < 12) := by
    unfold Spec.Fits at hq
    intro hh
    rcases hh with hh | hh
    · have := UInt32.lt_iff_toNat_lt.1 hh
      rw [hn] at this
      have e : (5120 : UInt32).toNat = 5120 := rfl
      omega
    · have := UInt32.lt_iff_toNat_lt.1 hh
      rw [hn] at this
      have e : (12 : UInt32).toNat = 12 := rfl
      omega
  unfold Spec.wire at h
  unfold turn Spec.pieces
  generalize hH : Gosms.Spec.header12 (UInt32.ofNat (12 + q.body.length)) q.cmd q.seq = H at *
  cases hr : read 12 cs with
  | none => exact .inl ⟨_, rfl, .inl rfl⟩
  | some x =>
    obtain ⟨hd, rest⟩ := x
    obtain ⟨r1, r2, r3, r4, r5⟩ := read_inv (by decide) hc hr
    dsimp only
    by_cases hl : hd.length = 12
    · rw [if_neg (by simpa using hl)]
      rw [h, List.append_assoc] at r3
      obtain ⟨e1, e2⟩ := List.append_inj r3 (by rw [h12, hl])
      subst e1
      rw [hu]
      dsimp only
      rw [if_neg hrange, hn]
      have e3 : 12 + q.body.length - 12 = q.body.length := by omega
      rw [e3]
      by_cases hb : q.body = []
      · have : ¬ q.body.length > 0 := by rw [hb]; simp
        rw [if_neg this]
        refine .inr ⟨rest, ?_, ?_, r4, ?_⟩
        · obtain ⟨c, s, b⟩ := q; simp only at hb; rw [hb]
        · rw [hb, List.nil_append] at e2; exact e2.symm
        · intro groups hg hgr
          obtain ⟨g', k1, k2, k3⟩ := r5 groups hg hgr
          exact ⟨g', k1, k2, by rw [k3, if_pos hb]; rfl⟩
      · have hlen : q.body.length > 0 := List.length_pos_iff.2 hb
        rw [if_pos hlen]
        cases hr2 : read q.body.length rest with
        | none => exact .inl ⟨_, rfl, .inr rfl⟩
        | some y =>
          obtain ⟨bd, rest'⟩ := y
          obtain ⟨s1, s2, s3, s4, s5⟩ := read_inv hlen r4 hr2
          dsimp only
          by_cases hbl : bd.length = q.body.length
          · rw [if_neg (by simpa using hbl)]
            rw [← e2] at s3
            obtain ⟨e4, e5⟩ := List.append_inj s3 hbl.symm
            refine .inr ⟨rest', by rw [← e4], e5.symm, s4, ?_⟩
            intro groups hg hgr
            obtain ⟨g1, k1, k2, k3⟩ := s5 groups hg hgr
            obtain ⟨g2, k4, k5, k6⟩ := r5 g1 k1 k2
            refine ⟨g2, k4, k5, ?_⟩
            rw [k6, k3, if_neg hb, ← e4]
            rfl
          · rw [if_pos hbl]; exact .inl ⟨_, rfl, .inr rfl⟩
    · rw [if_pos hl]; exact .inl ⟨_, rfl, .inl rfl⟩

/-- **C62, exactly.** Whatever packets the server sends and however the reads cut the stream: the client processes all of them if and only if no
header and no body is torn apart by two reads. Otherwise it processes a proper prefix of them, each as it was sent, and closes the session. -/
theorem receive_exactly (ps : List Packet) (hp : ∀ p ∈ ps, Spec.Fits p) (chunks : List Bytes) (hc : ∀ c ∈ chunks, c ≠ [])
    (h : chunks.flatten = (ps.map Spec.wire).flatten) (fuel : Nat) (hf : ps.length < fuel) :
    (Spec.Whole ps chunks ↔ receive fuel chunks = (ps, some .head)) ∧
    (¬ Spec.Whole ps chunks → ∃ got missed e, ps = got ++ missed ∧ missed ≠ [] ∧ receive fuel chunks = (got, some e) ∧ (e = .head ∨ e = .body)) := by
  have key : Spec.Whole ps chunks ∨
      ∃ got missed e, ps = got ++ missed ∧ missed ≠ [] ∧ receive fuel chunks = (got, some e) ∧ (e = .head ∨ e = .body) := by
    induction ps generalizing chunks fuel with
    | nil =>
      left
      refine ⟨[], by simp, rfl, ?_⟩
      cases chunks with
      | nil => rfl
      | cons c cs =>
        simp only [List.map_nil, List.flatten_nil, List.flatten_cons, List.append_eq_nil_iff] at h
        exact absurd h.1 (hc c (by simp))
    | cons q ps ih =>
      obtain ⟨n, rfl⟩ : ∃ n, fuel = n + 1 := ⟨fuel - 1, by simp at hf; omega⟩
      rw [List.map_cons, List.flatten_cons] at h
      rcases turn_inv (hp q (by simp)) hc h with ⟨e, he, hee⟩ | ⟨rest, ht, hr, hrc, hg⟩
      · right
        exact ⟨[], q :: ps, e, rfl, by simp, by simp only [receive, he], hee⟩
      · rcases ih (fun p hx => hp p (by simp [hx])) rest hrc hr n (by simp at hf; omega) with ⟨g, k1, k2, k3⟩ | ⟨got, missed, e, k1, k2, k3, k4⟩
        · left
          obtain ⟨g', m1, m2, m3⟩ := hg g k1 k3
          exact ⟨g', m1, by rw [m3, k2, List.flatMap_cons], m2⟩
        · right
          exact ⟨q :: got, missed, e, by rw [k1]; rfl, k2, by simp only [receive, ht, k3], k4⟩
  refine ⟨⟨?_, fun hr => ?_⟩, fun hn => key.resolve_left hn⟩
  · rintro ⟨g, k1, k2, rfl⟩
    exact receive_partial ps hp g k1 k2 fuel hf
  · rcases key with hw | ⟨got, missed, e, k1, k2, k3, _⟩
    · exact hw
    · rw [k3] at hr
      simp only [Prod.mk.injEq] at hr
      have := congrArg List.length k1
      rw [List.length_append, ← hr.1] at this
      have := List.length_pos_iff.2 k2
      omega

/-- A packet with a body of one byte: read at once, or header first, it is received; cut in the header it is not. -/
example : Spec.Whole [⟨5, 1, [9]⟩] [Spec.wire ⟨5, 1, [9]⟩] ∧ Spec.Whole [⟨5, 1, [9]⟩] [(Spec.wire ⟨5, 1, [9]⟩).take 12, [9]] ∧
    ¬ Spec.Whole [⟨5, 1, [9]⟩] [(Spec.wire ⟨5, 1, [9]⟩).take 4, (Spec.wire ⟨5, 1, [9]⟩).drop 4] := by
  refine ⟨⟨[Spec.pieces ⟨5, 1, [9]⟩], by simp [Spec.pieces], by simp, by decide⟩,
    ⟨[[(Spec.wire ⟨5, 1, [9]⟩).take 12], [[9]]], by simp, by decide, by decide⟩, ?_⟩
  rw [(receive_exactly [⟨5, 1, [9]⟩] (by simp [Spec.Fits]) _ (by decide) (by decide) 2 (by decide)).1]
  decide

end Gosms.ClientReceive
