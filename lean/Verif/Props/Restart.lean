import Verif.Model.Restart
import Verif.Props.Snowflake
import Verif.Props.Bcd
import Verif.Props.SgipSeq
import Verif.Props.CycleSeq
import Verif.Props.Startup
import Verif.Model.Smgp

/-! # C121: ids of a process that is started again

`ids.flatten.Nodup` below says: over all lives of the process no id is handed out twice. -/

namespace Gosms.Restart
open Gosms.Startup

/-- Two lists of a kind that are all without repetition and have no elements in common. -/
theorem nodup_flatten {α : Type} (ls : List (List α)) (h : ∀ l ∈ ls, l.Nodup) :
    ls.flatten.Nodup ↔ ls.Pairwise (fun a b => ∀ x ∈ a, x ∉ b) := by
  rw [List.nodup_iff_pairwise_ne, List.pairwise_flatten]
  constructor
  · rintro ⟨_, h2⟩
    exact h2.imp fun hab x hx hx' => hab x hx x hx' rfl
  · intro h2
    refine ⟨fun l hl => (List.nodup_iff_pairwise_ne.1 (h l hl)), h2.imp fun {a b} hab x hx y hy (e : x = y) => hab x hx (by rw [e]; exact hy)⟩

/-! ## 64 bit ids (CMPP message ids) -/

/-- What each life has handed out. -/
theorem b64_mem (c : Config) : ∀ (lives : List (List Int × Nat)) (ids : List (List (BitVec 64))), b64 c lives = some ids →
    ∀ a ∈ ids, ∃ l ∈ lives, (seqInit c).b64.run l.1 l.2 = some a := by
  intro lives
  induction lives with
  | nil => intro ids h a ha; simp only [b64, Option.some.injEq] at h; subst h; cases ha
  | cons l lives ih =>
    obtain ⟨clock, n⟩ := l
    intro ids h a ha
    rw [b64] at h
    cases hr : (seqInit c).b64.run clock n with
    | none => rw [hr] at h; cases h
    | some x =>
      rw [hr] at h
      simp only [Option.bind_some] at h
      obtain ⟨rest, hrest, rfl⟩ := Option.map_eq_some_iff.1 h
      rcases List.mem_cons.1 ha with rfl | ha
      · exact ⟨(clock, n), by simp, hr⟩
      · obtain ⟨l, hl, e⟩ := ih rest hrest a ha
        exact ⟨l, by simp [hl], e⟩

/-- A relation between what two lives have handed out, from one between the lives. -/
theorem b64_pairwise (c : Config) {R : List Int × Nat → List Int × Nat → Prop} {Q : List (BitVec 64) → List (BitVec 64) → Prop}
    (hRQ : ∀ l l' a b, R l l' → (seqInit c).b64.run l.1 l.2 = some a → (seqInit c).b64.run l'.1 l'.2 = some b → Q a b) :
    ∀ (lives : List (List Int × Nat)) (ids : List (List (BitVec 64))), b64 c lives = some ids → lives.Pairwise R → ids.Pairwise Q := by
  intro lives
  induction lives with
  | nil => intro ids h _; simp only [b64, Option.some.injEq] at h; subst h; exact List.Pairwise.nil
  | cons l lives ih =>
    obtain ⟨clock, n⟩ := l
    intro ids h hp
    rw [b64] at h
    rw [List.pairwise_cons] at hp
    cases hr : (seqInit c).b64.run clock n with
    | none => rw [hr] at h; cases h
    | some x =>
      rw [hr] at h
      simp only [Option.bind_some] at h
      obtain ⟨rest, hrest, rfl⟩ := Option.map_eq_some_iff.1 h
      rw [List.pairwise_cons]
      refine ⟨fun b hb => ?_, ih rest hrest hp.2⟩
      obtain ⟨l', hl', e⟩ := b64_mem c lives rest hrest b hb
      exact hRQ _ _ _ _ (hp.1 l' hl') hr e

/-- A generator that has not drawn in millisecond `t` yet draws number 0 of it first. -/
theorem first_in_ms (n : Nat) : ∀ (s : Snowflake) (clock : List Int) (ids : List (BitVec 64)), s.run clock n = some ids →
    s.datacenterId.toNat < 8 → s.workerId.toNat < 128 → (∀ c ∈ clock, SfInRange c) →
    ∀ t, s.timestamp ≠ t → (∃ id ∈ ids, (snowflakeParse id).timestamp = t) → (s.finish t 0).1 ∈ ids := by
  induction n with
  | zero =>
    intro s clock ids h _ _ _ t _ hx
    simp only [Snowflake.run, Option.some.injEq] at h
    subst h; obtain ⟨id, hid, _⟩ := hx; cases hid
  | succ n ih =>
    intro s clock ids h hd hw hr t ht hx
    rw [Snowflake.run] at h
    cases hn : s.nextVal clock with
    | none => rw [hn] at h; cases h
    | some p =>
      obtain ⟨⟨id0, s'⟩, clock'⟩ := p
      rw [hn] at h
      simp only [Option.bind_some] at h
      obtain ⟨ids', hrun, rfl⟩ := Option.map_eq_some_iff.1 h
      obtain ⟨o1, o2, o3, o4, used, o5, _⟩ := snowflake_origin s s' clock clock' id0 hn hd hw hr
      by_cases hst : s'.timestamp = t
      · -- drawn just now: the number is 0
        refine List.mem_cons.2 (Or.inl ?_)
        have key : ∀ now q, SfInRange now → q.toNat < 4096 → s.finish now q = (id0, s') → now = t := by
          intro now q hin hq e
          have := (finish_eq s now q hd hw hin hq).2
          rw [e] at this
          simp only at this
          rw [← hst, this]
        cases clock with
        | nil => cases hn
        | cons now clock =>
          rw [Snowflake.nextVal] at hn
          split at hn
          · rename_i heq
            dsimp only at hn
            split at hn
            · rename_i hz
              cases hwt : waitAfter s.timestamp clock with
              | none => rw [hwt] at hn; cases hn
              | some p =>
                obtain ⟨now', rest'⟩ := p
                rw [hwt] at hn
                simp only [Option.map_some, Option.some.injEq, Prod.mk.injEq] at hn
                obtain ⟨_, pre, hpre, _⟩ := waitAfter_spec hwt
                have := key now' _ (hr now' (by simp [hpre])) (by rw [mask12]; omega) hn.1
                rw [← this, ← hz, hn.1]
            · simp only [Option.some.injEq, Prod.mk.injEq] at hn
              have := key now _ (hr now (by simp)) (by rw [mask12]; omega) hn.1
              exact absurd (heq.trans this) ht
          · simp only [Option.some.injEq, Prod.mk.injEq] at hn
            have := key now 0 (hr now (by simp)) (by decide) hn.1
            rw [← this, hn.1]
      · obtain ⟨id, hid, hidt⟩ := hx
        rcases List.mem_cons.1 hid with rfl | hid
        · rw [o1] at hidt; exact absurd hidt hst
        · have := ih s' clock' ids' hrun (by rw [o3]; exact hd) (by rw [o4]; exact hw) (fun c hc => hr c (by simp [o5, hc])) t hst
            ⟨id, hid, hidt⟩
          have e : (s'.finish t 0).1 = (s.finish t 0).1 := by
            simp only [Snowflake.finish, o3, o4]; split <;> rfl
          rw [e] at this
          exact List.mem_cons.2 (Or.inr this)

/-- The configured numbers of the 64 bit generator. -/
theorem b64_conf (c : Config) (d w : Nat) (hd : c.int (ascii "Snowflake.B64.DC") = d) (hw : c.int (ascii "Snowflake.B64.worker") = w)
    (hd' : d < 8) (hw' : w < 128) :
    (seqInit c).b64.datacenterId.toNat < 8 ∧ (seqInit c).b64.workerId.toNat < 128 ∧ (seqInit c).b64.timestamp = 0 ∧
    (seqInit c).b64 = newSnowflake (BitVec.ofNat 64 d) (BitVec.ofNat 64 w) := by
  have e : (seqInit c).b64 = newSnowflake (BitVec.ofNat 64 d) (BitVec.ofNat 64 w) := by
    simp only [seqInit, hd, hw, BitVec.ofInt_natCast]
  rw [e]
  refine ⟨?_, ?_, rfl, rfl⟩
  · simp only [newSnowflake, BitVec.toNat_ofNat]; omega
  · simp only [newSnowflake, BitVec.toNat_ofNat]; omega

/-- The lives of a process whose clock is in range and does not go backwards during a life. -/
def Calm (lives : List (List Int × Nat)) : Prop := ∀ l ∈ lives, l.1.Pairwise (· ≤ ·) ∧ ∀ t ∈ l.1, SfInRange t

/-- **C121**, 64 bit ids: over all lives no id is handed out twice exactly if no two lives handed out ids in the same millisecond,
as their ids tell it. -/
theorem b64_again_iff (c : Config) (d w : Nat) (hd : c.int (ascii "Snowflake.B64.DC") = d) (hw : c.int (ascii "Snowflake.B64.worker") = w)
    (hd' : d < 8) (hw' : w < 128) (lives : List (List Int × Nat)) (hl : Calm lives) (ids : List (List (BitVec 64)))
    (h : b64 c lives = some ids) :
    ids.flatten.Nodup ↔
      ids.Pairwise (fun a b => ∀ x ∈ a, ∀ y ∈ b, (snowflakeParse x).timestamp ≠ (snowflakeParse y).timestamp) := by
  obtain ⟨c1, c2, c3, c4⟩ := b64_conf c d w hd hw hd' hw'
  have hnd : ∀ a ∈ ids, a.Nodup := by
    intro a ha
    obtain ⟨l, hl', e⟩ := b64_mem c lives ids h a ha
    rw [c4] at e c1 c2
    exact (snowflake_ids_increasing _ _ c1 c2 l.1 (hl l hl').1 (hl l hl').2 l.2 a e).2.2.1
  rw [nodup_flatten ids hnd]
  constructor
  · intro hp
    refine hp.imp_of_mem fun {a b} ha hb hab x hx y hy hxy => ?_
    obtain ⟨l, hl1, e1⟩ := b64_mem c lives ids h a ha
    obtain ⟨l', hl2, e2⟩ := b64_mem c lives ids h b hb
    have hin := hl l hl1
    have hx' := (snowflake_run_origin l.2 _ l.1 a e1 c1 c2 hin.2 x hx).2.2
    have hne : (seqInit c).b64.timestamp ≠ (snowflakeParse x).timestamp := by
      rw [c3]
      have := (hin.2 _ hx').1
      unfold sfEpoch at this
      omega
    have m1 := first_in_ms l.2 _ l.1 a e1 c1 c2 hin.2 _ hne ⟨x, hx, rfl⟩
    have m2 := first_in_ms l'.2 _ l'.1 b e2 c1 c2 (hl l' hl2).2 _ hne ⟨y, hy, hxy.symm⟩
    exact hab _ m1 m2
  · intro hp
    exact hp.imp fun hab x hx hx' => hab x hx x hx' rfl

/-- **C121**, 64 bit ids: if each life begins in a later millisecond than the one before it ended, the ids increase over all lives; none is
handed out twice. -/
theorem b64_again_partial (c : Config) (d w : Nat) (hd : c.int (ascii "Snowflake.B64.DC") = d)
    (hw : c.int (ascii "Snowflake.B64.worker") = w) (hd' : d < 8) (hw' : w < 128) (lives : List (List Int × Nat)) (hl : Calm lives)
    (hlater : lives.Pairwise (fun a b => ∀ x ∈ a.1, ∀ y ∈ b.1, x < y)) (ids : List (List (BitVec 64))) (h : b64 c lives = some ids) :
    ids.flatten.Pairwise (fun a b => a.toNat < b.toNat) ∧ ids.flatten.Nodup := by
  obtain ⟨c1, c2, c3, c4⟩ := b64_conf c d w hd hw hd' hw'
  have hinc : ids.flatten.Pairwise (fun a b => a.toNat < b.toNat) := by
    rw [List.pairwise_flatten]
    refine ⟨fun a ha => ?_, ?_⟩
    · obtain ⟨l, hl', e⟩ := b64_mem c lives ids h a ha
      rw [c4] at e c1 c2
      exact (snowflake_ids_increasing _ _ c1 c2 l.1 (hl l hl').1 (hl l hl').2 l.2 a e).2.1
    · have hall : lives.Pairwise (fun l l' => ((∀ t ∈ l.1, SfInRange t) ∧ ∀ t ∈ l'.1, SfInRange t) ∧ ∀ x ∈ l.1, ∀ y ∈ l'.1, x < y) :=
        hlater.imp_of_mem fun {a b} ha hb hab => ⟨⟨(hl a ha).2, (hl b hb).2⟩, hab⟩
      refine b64_pairwise c (fun l l' a b hR e1 e2 x hx y hy => ?_) lives ids h hall
      obtain ⟨⟨r1, r2⟩, hlt⟩ := hR
      have tx := (snowflake_run_origin l.2 _ l.1 a e1 c1 c2 r1 x hx).2.2
      have ty := (snowflake_run_origin l'.2 _ l'.1 b e2 c1 c2 r2 y hy).2.2
      have hlt' := hlt _ tx _ ty
      simp only [snowflakeParse] at hlt' tx ty
      have p1 := (r1 _ tx).1
      have p2 := (r2 _ ty).1
      have nx : ∀ z : BitVec 64, 0 ≤ (z.sshiftRight 22).toInt → (z.sshiftRight 22).toInt = (z.toNat / 2 ^ 22 : Nat) := by
        intro z hz
        rw [BitVec.toInt_sshiftRight, Int.shiftRight_eq_div_pow] at *
        rw [BitVec.toInt_eq_toNat_cond] at *
        have := z.isLt
        split at hz <;> rename_i hc
        · rw [if_pos hc]; omega
        · rw [if_neg hc]; omega
      rw [nx x (by omega), nx y (by omega)] at hlt'
      omega
  refine ⟨hinc, ?_⟩
  rw [List.nodup_iff_pairwise_ne]
  exact hinc.imp fun hab e => by rw [e] at hab; omega

/-- **C121 fails** for 64 bit ids of a process started again within a millisecond of handing out an id: whatever the configuration and the
lives before and after, the number 0 of that millisecond is handed out in both. -/
theorem b64_same_ms_fails (c : Config) (t : Int) (clock clock' : List Int) (ht : 0 < t) :
    ∃ id s s', (seqInit c).b64.nextVal (t :: clock) = some ((id, s), clock) ∧
      (seqInit c).b64.nextVal (t :: clock') = some ((id, s'), clock') := by
  have e : ¬ (seqInit c).b64.timestamp = t := by
    have : (seqInit c).b64.timestamp = 0 := rfl
    omega
  refine ⟨((seqInit c).b64.finish t 0).1, ((seqInit c).b64.finish t 0).2, ((seqInit c).b64.finish t 0).2, ?_, ?_⟩ <;>
    rw [Snowflake.nextVal, if_neg e]

/-- A configuration for the examples: data center 1, worker 2, gateway 123456, node 300000. -/
def exConf : Config :=
  ⟨fun k => if k = ascii "Snowflake.BCD" then ascii "123456" else [],
   fun k => if k = ascii "Snowflake.B64.DC" then 1 else if k = ascii "Snowflake.B64.worker" then 2 else
     if k = ascii "Snowflake.SGIP" then 300000 else 0, fun _ => false⟩

/-- Two lives, a millisecond apart and within the same one. -/
example : exConf.int (ascii "Snowflake.B64.DC") = 1 ∧ exConf.int (ascii "Snowflake.B64.worker") = 2 ∧
    (b64 exConf [([1577808000005, 1577808000005], 2), ([1577808000006], 1)]).map (·.map (·.map BitVec.toNat)) =
      some [[0x1482000, 0x1482001], [0x1882000]] ∧
    (b64 exConf [([1577808000005, 1577808000005], 2), ([1577808000005], 1)]).map (·.map (·.map BitVec.toNat)) =
      some [[0x1482000, 0x1482001], [0x1482000]] := by decide +kernel
example : Calm [([1577808000005, 1577808000005], 2), ([1577808000006], 1)] := by unfold Calm SfInRange; decide

/-! ## BCD ids (SMGP message ids) -/

theorem first_in_minute (m : Bytes) : ∀ (ms : List Bytes) (tf : BcdSeq), tf.timestamp ≠ m → m ∈ ms →
    pad 3 tf.worker ++ pad 4 (stoBcd m) ++ pad 3 (stoBcd (intToFixStr 0 6)) ∈ tf.run ms := by
  intro ms
  induction ms with
  | nil => intro tf _ h; cases h
  | cons x ms ih =>
    intro tf ht hm
    rw [BcdSeq.run]
    by_cases hx : x = m
    · subst hx
      refine List.mem_cons.2 (Or.inl ?_)
      simp only [BcdSeq.nextVal, if_neg ht]
    · have := ih (tf.nextVal x).2 hx (by simpa [Ne.symm hx] using hm)
      exact List.mem_cons.2 (Or.inr this)

/-- A digit for each byte. -/
def clamp (b : UInt8) : UInt8 := bcdNibble b + 0x30

theorem clamp_digit : ∀ b : UInt8, 0x30 ≤ (clamp b).toNat ∧ (clamp b).toNat ≤ 0x39 ∧ bcdNibble (clamp b) = bcdNibble b := by
  have h : ∀ n : Fin 256, 0x30 ≤ (clamp (UInt8.ofNat n)).toNat ∧ (clamp (UInt8.ofNat n)).toNat ≤ 0x39 ∧
      bcdNibble (clamp (UInt8.ofNat n)) = bcdNibble (UInt8.ofNat n) := by decide +kernel
  intro b
  have := h ⟨b.toNat, b.toNat_lt⟩
  simpa using this

theorem stoBcd_clamp (w : Bytes) : stoBcd (w.map clamp) = stoBcd w := by
  have key : ∀ (w : Bytes) (odd : Bool) (h l : UInt8) (wb : Bytes), stoBcdLoop (w.map clamp) odd h l wb = stoBcdLoop w odd h l wb := by
    intro w
    induction w with
    | nil => intro odd h l wb; rfl
    | cons b w ih =>
      intro odd h l wb
      cases odd
      · rw [List.map_cons, stoBcdLoop, stoBcdLoop, (clamp_digit b).2.2, ih]
      · rw [List.map_cons, stoBcdLoop, stoBcdLoop, (clamp_digit b).2.2, ih]
  simp only [stoBcd, key]

/-- Whatever is configured, the BCD generator has a node of six digits. -/
theorem newBcd_node (w : Bytes) : ∃ node, (newBcdSequence w).HasNode node := by
  unfold newBcdSequence
  dsimp only
  generalize (if ((runes w).any fun r => decide (UInt8.ofNat r > 0x39) || decide (UInt8.ofNat r < 0x30)) = true then ascii "000000" else w) = v
  refine ⟨((ascii "000000" ++ v).drop ((ascii "000000" ++ v).length - 6)).map clamp, ?_, ?_, ?_⟩
  · intro b hb
    obtain ⟨x, _, rfl⟩ := List.mem_map.1 hb
    exact ⟨(clamp_digit x).1, (clamp_digit x).2.1⟩
  · rw [List.length_map, List.length_drop, List.length_append]
    have : (ascii "000000").length = 6 := by decide
    omega
  · rw [stoBcd_clamp]

/-- The minutes of a life do not come back, and none is asked for more than 10^6 ids (C04). -/
def Minutes (ms : List Bytes) : Prop :=
  (∀ m ∈ ms, IsDigits m ∧ m.length = 8) ∧ NeverReturns ms ∧ ∀ m ∈ ms, ms.count m ≤ 1000000

/-- **C121**, BCD ids, for every configuration: over all lives no id is handed out twice exactly if no two lives handed out ids in the same
minute. -/
theorem bcd_again_iff (c : Config) (lives : List (List Bytes)) (hl : ∀ ms ∈ lives, Minutes ms) :
    (bcd c lives).flatten.Nodup ↔ lives.Pairwise (fun a b => ∀ m ∈ a, m ∉ b) := by
  obtain ⟨node, hnode⟩ := newBcd_node (c.str (ascii "Snowflake.BCD"))
  have hbcd : (seqInit c).bcd = newBcdSequence (c.str (ascii "Snowflake.BCD")) := rfl
  rw [← hbcd] at hnode
  have hfresh : (seqInit c).bcd.timestamp = [] := rfl
  have hnd : ∀ l ∈ bcd c lives, l.Nodup := by
    intro l hl'
    obtain ⟨ms, hms, rfl⟩ := List.mem_map.1 hl'
    obtain ⟨h1, h2, h3⟩ := hl ms hms
    exact (bcd_ids_unique _ node ms hnode hfresh h1 h2 h3).2
  rw [nodup_flatten _ hnd, bcd, List.pairwise_map]
  constructor
  · intro hp
    refine hp.imp_of_mem fun {a b} ha hb hab m hm hm' => ?_
    have hne : (seqInit c).bcd.timestamp ≠ m := by
      rw [hfresh]
      intro e
      have := ((hl a ha).1 m hm).2
      rw [← e] at this
      cases this
    exact hab _ (first_in_minute m a _ hne hm) (first_in_minute m b _ hne hm')
  · intro hp
    refine hp.imp_of_mem fun {a b} ha hb hab x hx hx' => ?_
    have tell : ∀ ms ∈ lives, ∀ x ∈ (seqInit c).bcd.run ms, ∃ m ∈ ms, ((bcdToString x).drop 6).take 8 = m := by
      intro ms hms x hx
      obtain ⟨h1, h2, h3⟩ := hl ms hms
      obtain ⟨hlen, hget⟩ := bcd_run_getElem node ms (seqInit c).bcd [] hnode (Or.inl ⟨rfl, hfresh⟩) (by simpa using h2)
        (by simpa using h1) (by simpa using h3)
      obtain ⟨i, hi, rfl⟩ := List.getElem_of_mem hx
      refine ⟨ms[i]'(by omega), List.getElem_mem _, ?_⟩
      rw [(hget i (by omega)).1, List.append_assoc, List.drop_left' hnode.2.1,
        List.take_left' (h1 _ (List.getElem_mem _)).2]
    obtain ⟨m, hm, e⟩ := tell a ha x hx
    obtain ⟨m', hm', e'⟩ := tell b hb x hx'
    rw [e] at e'
    exact hab m hm (e' ▸ hm')

/-- **C121 fails** for BCD ids of a process started again within the minute: life after life they begin anew, the `k`-th id of one life in
the minute is the `k`-th of the other. -/
theorem bcd_same_minute_fails (c : Config) (m : Bytes) (n k : Nat) :
    (seqInit c).bcd.run (List.replicate n m) = ((seqInit c).bcd.run (List.replicate (n + k) m)).take n := by
  generalize (seqInit c).bcd = tf
  induction n generalizing tf with
  | zero => simp [BcdSeq.run]
  | succ n ih =>
    have e : n + 1 + k = (n + k) + 1 := by omega
    rw [e, List.replicate_succ, List.replicate_succ, BcdSeq.run, BcdSeq.run, List.take_succ_cons, ← ih]

/-- Two different submits, accepted by the server before and after a restart within the minute, each first in its life: their
responses carry the same message id, and so do their reports. -/
theorem smgp_responses_same_id_fails (c : Config) (m : Bytes) (ms ms' : List Bytes) (s s' : Smgp.Submit) :
    ∃ id, ((seqInit c).bcd.run (m :: ms)).head? = some id ∧ ((seqInit c).bcd.run (m :: ms')).head? = some id ∧
      (s.toResponse 0 id).msgId = id ∧ (s'.toResponse 0 id).msgId = id :=
  ⟨((seqInit c).bcd.nextVal m).1, rfl, rfl, rfl, rfl⟩

/-- Three lives, the second and the third in minutes of their own. -/
example : (∀ ms ∈ [[ascii "11161504", ascii "11161504"], [], [ascii "11161505"]], Minutes ms) ∧
    [[ascii "11161504", ascii "11161504"], [], [ascii "11161505"]].Pairwise (fun (a b : List Bytes) => ∀ m ∈ a, m ∉ b) := by
  have dig : ∀ m ∈ [ascii "11161504", ascii "11161505"], IsDigits m ∧ m.length = 8 := by
    unfold IsDigits; decide +kernel
  refine ⟨?_, by decide +kernel⟩
  intro ms hms
  refine ⟨?_, ?_, ?_⟩
  · intro m hm
    refine dig m ?_
    revert hm; revert m; revert ms; decide +kernel
  · have hs : ms.length ≤ 2 := by revert ms; decide +kernel
    intro i j k hk hij hjk; omega
  · have hs : ms.length ≤ 2 := by revert ms; decide +kernel
    intro m _
    have := List.count_le_length (a := m) (l := ms)
    omega

/-! ## SGIP sequence numbers (SGIP message ids) -/

/-- The same second of the year. -/
def SameSecond (x y : Clock) : Prop :=
  x.month = y.month ∧ x.day = y.day ∧ x.hour = y.hour ∧ x.minute = y.minute ∧ x.second = y.second

theorem sgip_run_stamp (cs : List Clock) : ∀ (s : SgipSeq), (∀ x ∈ cs, x.Valid) → ∀ (i : Nat) (hi : i < cs.length) (hi' : i < (s.run cs).length),
    ((s.run cs)[i]).2.1.toNat = cs[i].month * 100000000 + cs[i].day * 1000000 + cs[i].hour * 10000 + cs[i].minute * 100 + cs[i].second := by
  induction cs with
  | nil => intro s hv i hi; simp at hi
  | cons x cs ih =>
    intro s hv i hi hi'
    cases i with
    | zero => exact sgip_timestamp s x (hv x (by simp))
    | succ i => exact ih (s.nextVal x).2 (fun y hy => hv y (by simp [hy])) i (by simpa using hi) _

theorem stamp_inj {x y : Clock} (hx : x.Valid) (hy : y.Valid)
    (h : x.month * 100000000 + x.day * 1000000 + x.hour * 10000 + x.minute * 100 + x.second =
      y.month * 100000000 + y.day * 1000000 + y.hour * 10000 + y.minute * 100 + y.second) : SameSecond x y := by
  obtain ⟨_, a2, a3, a4, a5, a6⟩ := hx
  obtain ⟨_, b2, b3, b4, b5, b6⟩ := hy
  refine ⟨?_, ?_, ?_, ?_, ?_⟩ <;> omega

/-- **C121**, SGIP numbers, for every configuration and lives of at most 2^32 numbers each: over all lives no number is handed out twice
exactly if there are no two lives of which both handed out their `i`-th number in the same second of the year. -/
theorem sgip_again_iff (c : Config) (lives : List (List Clock)) (hl : ∀ cs ∈ lives, cs.length ≤ 2 ^ 32 ∧ ∀ x ∈ cs, x.Valid) :
    (sgip c lives).flatten.Nodup ↔
      lives.Pairwise (fun (a b : List Clock) => ∀ (i : Nat) (x y : Clock), a[i]? = some x → b[i]? = some y → ¬ SameSecond x y) := by
  have hnd : ∀ l ∈ sgip c lives, l.Nodup := by
    intro l hl'
    obtain ⟨cs, hcs, rfl⟩ := List.mem_map.1 hl'
    have := (sgip_sequence_unique (seqInit c).sgip.node (seqInit c).sgip.sequence cs (hl cs hcs).1).1
    rw [List.nodup_iff_pairwise_ne, List.pairwise_map] at this
    rw [List.nodup_iff_pairwise_ne]
    exact this.imp fun hab e => hab (by rw [e])
  rw [nodup_flatten _ hnd, sgip, List.pairwise_map]
  have word : ∀ cs : List Clock, ∃ hlen : ((seqInit c).sgip.run cs).length = cs.length, ∀ i (hi : i < cs.length),
      (((seqInit c).sgip.run cs)[i]'(by omega)).2.2.toNat = ((seqInit c).sgip.sequence.toNat + 31 * (i + 1)) % 2 ^ 32 ∧
      (((seqInit c).sgip.run cs)[i]'(by omega)).1 = (seqInit c).sgip.node := fun cs => sgip_run_getElem cs _
  constructor
  · intro hp
    refine hp.imp_of_mem fun {a b} ha hb hab i x y hx hy hs => ?_
    obtain ⟨hia, rfl⟩ := List.getElem?_eq_some_iff.1 hx
    obtain ⟨hib, rfl⟩ := List.getElem?_eq_some_iff.1 hy
    obtain ⟨la, wa⟩ := word a
    obtain ⟨lb, wb⟩ := word b
    have ta := sgip_run_stamp a (seqInit c).sgip (hl a ha).2 i hia (by omega)
    have tb := sgip_run_stamp b (seqInit c).sgip (hl b hb).2 i hib (by omega)
    obtain ⟨s1, s2, s3, s4, s5⟩ := hs
    refine hab (((seqInit c).sgip.run a)[i]'(by omega)) (List.getElem_mem _) ?_
    have e : ((seqInit c).sgip.run a)[i]'(by omega) = ((seqInit c).sgip.run b)[i]'(by omega) := by
      refine Prod.ext ((wa i hia).2.trans (wb i hib).2.symm) (Prod.ext ?_ ?_)
      · apply UInt32.toNat_inj.1
        rw [ta, tb, s1, s2, s3, s4, s5]
      · apply UInt32.toNat_inj.1
        rw [(wa i hia).1, (wb i hib).1]
    rw [e]
    exact List.getElem_mem _
  · intro hp
    refine hp.imp_of_mem fun {a b} ha hb hab x hx hx' => ?_
    obtain ⟨la, wa⟩ := word a
    obtain ⟨lb, wb⟩ := word b
    obtain ⟨i, hi, e1⟩ := List.getElem_of_mem hx
    obtain ⟨j, hj, e2⟩ := List.getElem_of_mem hx'
    have e : ((seqInit c).sgip.run a)[i] = ((seqInit c).sgip.run b)[j] := e1.trans e2.symm
    have h1 := (wa i (by omega)).1
    have h2 := (wb j (by omega)).1
    rw [e, h2] at h1
    have l1 := (hl a ha).1
    have l2 := (hl b hb).1
    have hij : i = j := by omega
    subst hij
    have ta := sgip_run_stamp a (seqInit c).sgip (hl a ha).2 i (by omega) hi
    have tb := sgip_run_stamp b (seqInit c).sgip (hl b hb).2 i (by omega) hj
    rw [e, tb] at ta
    exact hab i (a[i]'(by omega)) (b[i]'(by omega)) (List.getElem?_eq_getElem _) (List.getElem?_eq_getElem _)
      (stamp_inj ((hl a ha).2 _ (List.getElem_mem _)) ((hl b hb).2 _ (List.getElem_mem _)) ta.symm)

/-- **C121 fails** for SGIP numbers of a process started again within the second: the first numbers of the two lives are the same. -/
theorem sgip_same_second_fails (c : Config) (x y : Clock) (h : SameSecond x y) (cs cs' : List Clock) :
    ((seqInit c).sgip.run (x :: cs)).head? = ((seqInit c).sgip.run (y :: cs')).head? := by
  obtain ⟨h1, h2, h3, h4, h5⟩ := h
  simp only [SgipSeq.run, List.head?_cons, SgipSeq.nextVal, h1, h2, h3, h4, h5]

/-- Two lives that share a second but not a place in it, and two that share both. -/
example : sgip exConf [[⟨26, 11, 16, 12, 0, 7⟩, ⟨26, 11, 16, 12, 0, 8⟩], [⟨26, 11, 16, 12, 0, 8⟩]] =
      [[(300000, 1116120007, 41), (300000, 1116120008, 72)], [(300000, 1116120008, 41)]] ∧
    sgip exConf [[⟨26, 11, 16, 12, 0, 8⟩], [⟨26, 11, 16, 12, 0, 8⟩]] =
      [[(300000, 1116120008, 41)], [(300000, 1116120008, 41)]] := by decide +kernel

/-! ## 32 bit numbers (sequence numbers of packets) -/

/-- **C121 fails** for 32 bit numbers, always: each life hands out the same numbers in the same order. -/
theorem b32_again_fails (c : Config) (n k : Nat) (lives : List Nat) :
    (b32 c (n :: (n + k) :: lives)).head? = ((b32 c (n :: (n + k) :: lives))[1]?).map (·.take n) := by
  simp only [b32, List.map_cons, List.head?_cons, List.getElem?_cons_succ, List.getElem?_cons_zero, Option.map_some, Option.some.injEq]
  rw [← List.map_take, List.take_range]
  congr 2
  omega

/-- **C121**, 32 bit numbers, for every configuration and lives of at most 2^26 numbers each: no number is handed out twice exactly if one
life at most hands out any. -/
theorem b32_again_iff (c : Config) (lives : List Nat) (hl : ∀ n ∈ lives, n ≤ 2 ^ 26) :
    (b32 c lives).flatten.Nodup ↔ lives.Pairwise (fun a b => a = 0 ∨ b = 0) := by
  have hnd : ∀ l ∈ b32 c lives, l.Nodup := by
    intro l hl'
    obtain ⟨n, hn, rfl⟩ := List.mem_map.1 hl'
    rw [List.nodup_iff_pairwise_ne, List.pairwise_map]
    refine List.Pairwise.imp_of_mem ?_ (List.pairwise_lt_range (n := n))
    intro a b ha hb hab heq
    rw [List.mem_range] at ha hb
    have hn' := hl n hn
    have := (cycle_unique _ _ a b).1 heq
    omega
  rw [nodup_flatten _ hnd, b32, List.pairwise_map]
  constructor
  · intro hp
    refine hp.imp fun {a b} hab => ?_
    by_cases ha : a = 0
    · exact Or.inl ha
    · by_cases hb : b = 0
      · exact Or.inr hb
      · refine absurd ?_ (hab ((seqInit c).b32.nth 0) (List.mem_map.2 ⟨0, by simp; omega, rfl⟩))
        exact List.mem_map.2 ⟨0, by simp; omega, rfl⟩
  · intro hp
    refine hp.imp fun {a b} hab x hx hx' => ?_
    rcases hab with rfl | rfl
    · simp at hx
    · simp at hx'

example : b32 exConf [2, 1] = [[0xa0000001#32, 0xa0000002#32], [0xa0000001#32]] := by decide +kernel

end Gosms.Restart
